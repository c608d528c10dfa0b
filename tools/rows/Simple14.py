row("T", "improvedBSO", "ImprovedBSO", 5, "c.popSize c.popSize (c.popSize + 1)", "p", [('he', '(ImprovedBSO.Even c p.m)')])
row("T", "originalBSO", "OriginalBSO", 5, "c.popSize c.popSize (c.popSize + 1)", "p", [('he', '(ImprovedBSO.Even c p.base.m)')])
row("T", "originalTWO", "OriginalTWO", 5, "c.popSize c.popSize c.popSize", "", [])
row("T", "oppoTWO", "OppoTWO", 5, "(c.popSize + c.popSize / 2) (c.popSize + c.popSize) (c.popSize + c.popSize)", "", [('h2', '(c.popSize % 2 = 0)'), ('hm', '(c.swarmLike = true)')])
row("T", "levyTWO", "LevyTWO", 5, "c.popSize c.popSize (c.popSize + c.popSize)", "", [('hm', '(c.swarmLike = true)')])
row("E", "originalMShOA", "OriginalMShOA", 5, "c.popSize c.popSize c.popSize", "", [])
row("E", "devMShOA", "DevMShOA", 5, "c.popSize c.popSize c.popSize", "p", [], before="Framed.preBefore")
row("T", "originalSRSR", "OriginalSRSR", 5, "c.popSize (c.popSize + c.popSize + 5) (c.popSize + c.popSize + 5)", "", [('hk', '(OriginalSRSR.Calm c)')])
