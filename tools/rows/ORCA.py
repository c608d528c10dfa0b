row("R", "originalOrcaOA", "OriginalOrcaOA", 5, "c.popSize (c.popSize - 1) (c.popSize - 1)", "p", [("hp", "(1 ≤ p.removes)")])
