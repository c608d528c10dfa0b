row("Y", "originalTS", "OriginalTS", 2, "c.popSize 1 p.neighbours", "p", [("ht", "(2 ≤ p.tabu)")], before="Framed.preBefore", err="[.index]")
row("Y", "aBFO", "ABFO", 5, "c.popSize (c.popSize * p.ns) (c.popSize * (p.ns + 1))", "p", [("hs", "(5 ≤ p.split)")], err="[.index, .zeroDiv]")
