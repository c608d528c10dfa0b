_who = "c.popSize (c.popSize * (p.explore + 1) + c.popSize * p.exploit) (c.popSize * (p.explore + 1) + c.popSize + c.popSize * (p.exploit + 2))"
row("W", "originalWHO", "OriginalWHO", 5, _who, "p", [("he", "(1 ≤ p.explore)"), ("hm", "(c.swarmLike = false)")], err="[]")
row("L", "originalWHO", "OriginalWHO", 5, _who, "p", [("he", "(1 ≤ p.explore)"), ("hx", "(1 ≤ p.exploit)"), ("hm", "(c.swarmLike = true)")])
row("W", "originalSBO", "OriginalSBO", 5, NNN, "p", [("hm", "(c.swarmLike = false)")], err="[.index]")
row("X", "originalSBO", "OriginalSBO", 5, NNN, "p", [("hm", "(c.swarmLike = true)")], err="[.index]")
row("W", "originalAAA", "OriginalAAA", 5, "c.popSize 0 (c.popSize * p.fuel + 1)", "p", [("hd", "(3 ≤ d)")], ok="hE hP h hd p", before="Framed.preBefore", err="[.hang]")
row("V", "originalBCO", "OriginalBCO", 5, "c.popSize c.popSize (c.popSize * (1 + p.swim) + c.popSize + c.popSize)", "p", before="Framed.preBefore", err="[]")
