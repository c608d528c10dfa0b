row("V", "oppoTWO", "OppoTWO", 5, "(c.popSize + c.popSize / 2) (c.popSize + c.popSize) (c.popSize + c.popSize)", "", [("h2", "(c.popSize % 2 = 0)")], err="[]")
row("V", "levyTWO", "LevyTWO", 5, "c.popSize c.popSize (c.popSize + c.popSize)", "", err="[]")
row("V", "originalTSeedA", "OriginalTSeedA", 5, "c.popSize (c.popSize * max 1 (c.popSize / 10)) (c.popSize * max 2 (c.popSize / 4))", "p", err="[]")
row("V", "originalArchOA", "OriginalArchOA", 5, "c.popSize c.popSize c.popSize", "p", err="[]")
