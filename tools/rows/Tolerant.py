# the settings that the other lines of these classes leave out: what can be raised there, and everything else that still holds
row("X", "devGSKA", "DevGSKA", 5, NNN, "p", [], err="[.value, .index]", wok="wokAny")
row("X", "originalGSKA", "OriginalGSKA", 5, NNN, "p", [], err="[.value, .index]", wok="wokAny")
row("X", "originalSHO", "OriginalSHO", 5, "c.popSize (c.popSize * (0 + 1)) (c.popSize * (p.nTrials + 1))", "p", [], err="[.value]", wok="wokAny")
row("X", "improvedNMRA", "ImprovedNMRA", 5, "c.popSize (c.popSize * 2) (c.popSize * 2)", "p", [], err="[.value]", wok="wokAny")
row("X", "originalINFO", "OriginalINFO", 5, NNN, "", [], err="[.index]", wok="wokAny")
row("X", "originalCSO", "OriginalCSO", 5, "c.popSize c.popSize (c.popSize * (2 * p.smp + 1))", "p", [("hd", "(0 < d)"), ("h2", "(2 ≤ p.smp)")], err="[.value]", wok="wokAny")
row("X", "originalDOA", "OriginalDOA", 5, NNN, "", [("hd", "(0 < d)")], err="[.value, .index]", wok="wokAny")
row("X", "originalMA", "OriginalMA", 5, "c.popSize c.popSize (c.popSize + c.popSize * p.maxLocalGens)", "p", [], err="[.index]", wok="wokAny")
row("X", "devEFO", "DevEFO", 5, NNN, "p", [], err="[.value, .index]", wok="wokAny")
row("X", "originalEFO", "OriginalEFO", 5, "c.popSize 1 1", "p", [], err="[.value, .index]", wok="wokAny")
row("X", "originalFLA", "OriginalFLA", 5, NNN, "p", [], err="[.index]", wok="wokAny")
row("X", "originalSRSR", "OriginalSRSR", 5, "c.popSize (c.popSize + c.popSize + 5) (c.popSize + c.popSize + 5)", "", [], err="[.value]", wok="wokAny")
row("X", "originalESO", "OriginalESO", 5, "c.popSize (c.popSize * 2) (c.popSize * 3)", "", [], err="[.value]", wok="wokAny")
