row("R", "devSARO", "DevSARO", 5, "(2 * c.popSize) (2 * c.popSize) (3 * c.popSize)", "p", [])
row("R", "originalSARO", "OriginalSARO", 5, "(2 * c.popSize) (2 * c.popSize) (3 * c.popSize)", "p", [("hd", "(0 < d)")])
