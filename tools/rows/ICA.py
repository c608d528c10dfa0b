row("S", "originalICA", "OriginalICA", 10, "c.popSize c.popSize (2 * (c.popSize + c.epoch))", "p",
    [("h2", "(2 ≤ p.empires)"), ("h5", "(p.empires ≤ 2 + c.popSize / 5)")], err="[.value, .overflow, .index]")
