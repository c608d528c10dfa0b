row("R", "originalLSHADEcnEpSin", "OriginalLSHADEcnEpSin", 5, "c.popSize p.min c.popSize", "p", [("hd", "(2 ≤ d)"), ("hm", "(1 ≤ p.memory)"), ("h4", "(4 ≤ p.min)"), ("hmin", "(p.min ≤ c.popSize)")], before="Framed.preBefore")
