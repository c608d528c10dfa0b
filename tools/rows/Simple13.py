row("E", "devEFO", "DevEFO", 5, "c.popSize c.popSize c.popSize", "p", [('hd', '(0 < d)'), ('hf', '(DevEFO.Fields c p)')])
row("T", "originalEFO", "OriginalEFO", 5, "c.popSize 1 1", "p", [('hd', '(0 < d)'), ('hf', '(DevEFO.Fields c p)')])
row("E", "originalNWOA", "OriginalNWOA", 5, "c.popSize c.popSize c.popSize", "p", [])
row("E", "originalNO", "OriginalNO", 5, "c.popSize c.popSize c.popSize", "p", [])
row("E", "originalLSO", "OriginalLSO", 5, "c.popSize (c.popSize + c.popSize) (c.popSize + c.popSize)", "p", [])
row("E", "devLSO", "DevLSO", 5, "c.popSize (c.popSize + c.popSize) (c.popSize + c.popSize)", "p", [])
row("T", "originalDMOA", "OriginalDMOA", 5, "c.popSize (c.popSize + c.popSize + c.popSize) (c.popSize + c.popSize + p.sitters + c.popSize)", "p", [('hn', '(p.sitters ≤ c.popSize)')])
row("T", "devDMOA", "DevDMOA", 5, "c.popSize (c.popSize + c.popSize + c.popSize) (c.popSize + c.popSize + c.popSize + c.popSize)", "p", [])
row("E", "originalFLA", "OriginalFLA", 5, "c.popSize c.popSize c.popSize", "p", [('hk', '(OriginalFLA.Calm c p)')])
row("T", "devBRO", "DevBRO", 5, "c.popSize c.popSize (c.popSize * 3)", "p", [])
row("T", "originalBRO", "OriginalBRO", 5, "c.popSize c.popSize c.popSize", "p", [])
row("T", "originalSFO", "OriginalSFO", 5, "(c.popSize + OriginalSFO.size c p.pp) c.popSize (c.popSize + OriginalSFO.size c p.pp + c.popSize)", "p", [('hd', '(0 < d)'), ('hm', '(c.popSize ≤ OriginalSFO.size c p.pp)'), ('hn', '(OriginalSFO.Narrow c p)')])
row("T", "improvedSFO", "ImprovedSFO", 5, "(c.popSize + OriginalSFO.size c p) (c.popSize + OriginalSFO.size c p) (c.popSize + OriginalSFO.size c p + c.popSize)", "p", [('hm', '(c.popSize ≤ OriginalSFO.size c p)')])
row("T", "mLFAGD", "MLFA_GD", 5, "c.popSize (MLFA_GD.half c + 1 + MLFA_GD.evaluated c + p.rw) (MLFA_GD.half c + 1 + MLFA_GD.evaluated c + p.rw)", "p", [('hf', '(p.females ≤ MLFA_GD.half c)')])
