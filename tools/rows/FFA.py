row("R", "originalFFA", "OriginalFFA", 5, "c.popSize (c.popSize * c.popSize) (c.popSize * c.popSize)", "p", [])
