row("E", "originalEAO", "OriginalEAO", 5, "c.popSize (c.popSize * 3) (c.popSize * 3)", "p", [])
row("E", "originalGOA", "OriginalGOA", 5, "c.popSize c.popSize c.popSize", "p", [])
row("E", "originalHBA", "OriginalHBA", 5, "c.popSize c.popSize c.popSize", "", [])
row("E", "originalServalOA", "OriginalServalOA", 5, "c.popSize (c.popSize * 2) (c.popSize * 2)", "", [])
row("E", "originalKLA", "OriginalKLA", 5, "c.popSize c.popSize c.popSize", "", [])
row("E", "originalBBOA", "OriginalBBOA", 5, "c.popSize (2 * c.popSize) (2 * c.popSize)", "", [])
row("E", "originalDSO", "OriginalDSO", 5, "c.popSize 0 c.popSize", "p", [], before="Framed.preBefore")
row("T", "originalSHO", "OriginalSHO", 5, "c.popSize (c.popSize * (0 + 1)) (c.popSize * (p.nTrials + 1))", "p", [('hn', '(p.nTrials + 1 ≤ c.popSize)')])
row("E", "originalWaOA", "OriginalWaOA", 5, "c.popSize (c.popSize * 2) (c.popSize * 2)", "", [])
row("E", "originalCrayfishOA", "OriginalCrayfishOA", 5, "c.popSize c.popSize c.popSize", "", [])
row("E", "originalCGO", "OriginalCGO", 5, "c.popSize (c.popSize * 4) (c.popSize * 4)", "", [('hd', '(0 < d)')])
row("E", "originalEHO", "OriginalEHO", 5, "c.popSize (c.popSize + p.nClans) (c.popSize + p.nClans)", "p", [('hk', '(p.nClans * p.nInd = c.popSize ∧ 2 ≤ p.nInd)')])
row("E", "originalWDO", "OriginalWDO", 5, "c.popSize c.popSize c.popSize", "p", [('hd', '(0 < d)')])
row("E", "originalMPA", "OriginalMPA", 5, "c.popSize c.popSize c.popSize", "", [])
row("E", "originalACOR", "OriginalACOR", 5, "c.popSize p.sampleCount p.sampleCount", "p", [])
row("E", "originalAFT", "OriginalAFT", 5, "c.popSize c.popSize c.popSize", "", [], before="Framed.preBefore")
row("T", "originalABC", "OriginalABC", 5, "c.popSize (2 * c.popSize) (3 * c.popSize)", "p", [])
row("E", "originalIWO", "OriginalIWO", 5, "c.popSize (c.popSize * 1) (c.popSize * c.popSize.sqrt)", "p", [('hs', '(OriginalIWO.Sows p)')])
