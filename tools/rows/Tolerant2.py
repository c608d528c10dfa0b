row("X", "originalCDDO", "OriginalCDDO", 5, NNN, "p", [("hd", "(0 < d)"), ("hp", "(1 ≤ p.pattern ∧ p.pattern ≤ c.popSize)")], before="Framed.preBefore", err="[.value]", wok="wokAny")
row("X", "cleverBookBeesA", "CleverBookBeesA", 5, "c.popSize c.popSize (c.popSize * p.most)", "p", [("h1", "(1 ≤ p.elites)"), ("h2", "(1 ≤ p.others)")], err="[.value]", wok="wokAny")
row("X", "originalCRO", "OriginalCRO", 5, "c.popSize 0 c.popSize", "p", [("hr", "(OriginalCRO.Rates c p)")], err="[.value]", wok="wokAny")
row("X", "oCRO", "OCRO", 5, "c.popSize 0 (c.popSize + c.popSize + c.popSize + c.popSize)", "p", [("hr", "(OriginalCRO.Rates c p.base)")], err="[.value]", wok="wokAny")
row("X", "originalSHADE", "OriginalSHADE", 5, NNN, "p", [("hd", "(0 < d)")], err="[.value, .index]", wok="wokAny")
row("X", "originalSFO", "OriginalSFO", 5, "(c.popSize + OriginalSFO.size c p.pp) c.popSize (c.popSize + OriginalSFO.size c p.pp + c.popSize)", "p", [("hm", "(c.popSize ≤ OriginalSFO.size c p.pp)")], err="[.value]", wok="wokAny")
