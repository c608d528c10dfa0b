row("Y", "originalLSHADEcnEpSin", "OriginalLSHADEcnEpSin", 5, "c.popSize (min p.min c.popSize) c.popSize", "p", [("hd", "(0 < d)"), ("hm", "(1 ≤ p.memory)"), ("h4", "(4 ≤ p.min)")], err="[.value, .index]", wok="wokUneven", before="Framed.preBefore")
