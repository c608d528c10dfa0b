row("T", "originalSSpiderO", "OriginalSSpiderO", 5, "c.popSize (c.popSize + c.popSize) (c.popSize + 2 * (c.popSize * c.popSize))", "p", [('hsh', '(OriginalSSpiderO.Shares c p)')])
row("T", "originalIMODE", "OriginalIMODE", 5, "c.popSize c.popSize c.popSize", "p", [('hd', '(0 < d)'), ('hm', '(2 ≤ p.memory)')], before="Framed.preBefore")
