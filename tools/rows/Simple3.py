row("E", "originalSSO", "OriginalSSO", 5, "c.popSize c.popSize c.popSize", "", [])
row("E", "originalMFO", "OriginalMFO", 5, "c.popSize c.popSize c.popSize", "", [])
row("E", "originalPFA", "OriginalPFA", 5, "c.popSize c.popSize c.popSize", "", [])
row("E", "originalRSA", "OriginalRSA", 5, "c.popSize c.popSize c.popSize", "p", [])
row("E", "originalWarSO", "OriginalWarSO", 5, "c.popSize c.popSize c.popSize", "p", [])
row("E", "originalCSA", "OriginalCSA", 5, "c.popSize (c.popSize + p.nCut) (c.popSize + p.nCut)", "p", [('hn', '(p.nCut < c.popSize)')])
row("E", "originalCDO", "OriginalCDO", 5, "c.popSize c.popSize c.popSize", "", [])
row("E", "originalSOS", "OriginalSOS", 5, "c.popSize (4 * c.popSize) (4 * c.popSize)", "", [('hd', '(0 < d)')])
row("E", "originalChOA", "OriginalChOA", 5, "c.popSize c.popSize c.popSize", "", [])
row("E", "originalSSDO", "OriginalSSDO", 5, "c.popSize c.popSize c.popSize", "", [])
row("E", "originalEOA", "OriginalEOA", 5, "c.popSize (c.popSize + (c.popSize - p.nBest)) (c.popSize + (c.popSize - p.nBest))", "p", [('hn1', '(2 ≤ p.nBest)'), ('hn2', '(p.nBest ≤ c.popSize / 2)')])
