row("I", "originalBeesA", "OriginalBeesA", 5, "c.popSize c.popSize (c.popSize * max p.selectedLocal p.eliteLocal)", "p",
    D + [("h1", "(1 ≤ p.selectedLocal)"), ("h2", "(1 ≤ p.eliteLocal)")], ok="hE hP h hd p h1 h2", err="[]")
row("I", "probBeesA", "ProbBeesA", 5, "c.popSize c.popSize (c.popSize * c.popSize)", "p", D, ok="hE hP h hd p", err="[]")
row("I", "originalTHRO", "OriginalTHRO", 10, "c.popSize (c.popSize / 2 * 2 + c.popSize / 2 * 2) (c.popSize / 2 * 2 + c.popSize / 2 * 2)", "", err="[]")
