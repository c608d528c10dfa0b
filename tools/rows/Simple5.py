row("T", "originalCA", "OriginalCA", 5, "c.popSize c.popSize c.popSize", "p", [('hn', '(1 ≤ p.nAcc)')])
row("E", "originalMGO", "OriginalMGO", 5, "c.popSize (c.popSize * 4) (c.popSize * 4)", "", [])
row("E", "originalNGO", "OriginalNGO", 5, "c.popSize (c.popSize * 2) (c.popSize * 2)", "", [])
row("E", "originalSeaHO", "OriginalSeaHO", 5, "c.popSize (c.popSize + c.popSize / 2) (c.popSize + c.popSize / 2)", "", [])
row("E", "originalSTO", "OriginalSTO", 5, "c.popSize (c.popSize * 2) (c.popSize * 2)", "", [])
row("E", "originalOOA", "OriginalOOA", 5, "c.popSize (c.popSize * 2) (c.popSize * 2)", "", [])
row("E", "originalOSA", "OriginalOSA", 5, "c.popSize c.popSize c.popSize", "p", [])
row("E", "originalTSeedA", "OriginalTSeedA", 5, "c.popSize (c.popSize * max 1 (c.popSize / 10)) (c.popSize * max 2 (c.popSize / 4))", "p", [('hm', '(c.swarmLike = true)')])
row("E", "originalMSA", "OriginalMSA", 5, "c.popSize c.popSize c.popSize", "p", [('hn', '(p.nBest ≤ c.popSize / 2)')])
row("E", "originalEVO", "OriginalEVO", 5, "c.popSize (c.popSize * 1) (c.popSize * 2)", "", [('hd', '(0 < d)')])
row("E", "originalFFO", "OriginalFFO", 5, "c.popSize (c.popSize * 2) (c.popSize * 2)", "", [])
row("E", "originalTDO", "OriginalTDO", 5, "c.popSize (c.popSize * 2) (c.popSize * 2)", "", [])
row("T", "originalCoatiOA", "OriginalCoatiOA", 5, "c.popSize (3 * c.popSize - c.popSize / 2) (3 * c.popSize - c.popSize / 2)", "", [])
row("E", "originalFHO", "OriginalFHO", 5, "c.popSize c.popSize c.popSize", "", [])
row("E", "originalSBOA", "OriginalSBOA", 5, "c.popSize (2 * c.popSize) (2 * c.popSize)", "", [])
row("E", "originalRFO", "OriginalRFO", 5, "c.popSize (c.popSize + max 1 (c.popSize / 20)) (2 * c.popSize + max 1 (c.popSize / 20))", "p", [])
row("E", "originalTSO", "OriginalTSO", 5, "c.popSize c.popSize c.popSize", "", [])
row("T", "originalTOA", "OriginalTOA", 5, "c.popSize (c.popSize * 3) (c.popSize * 4)", "", [])
row("E", "originalHGS", "OriginalHGS", 5, "c.popSize c.popSize c.popSize", "p", [])
row("T", "originalHHO", "OriginalHHO", 5, "c.popSize (c.popSize * 0 + c.popSize) (c.popSize * 2 + c.popSize)", "", [])
row("E", "originalZOA", "OriginalZOA", 5, "c.popSize (2 * c.popSize) (2 * c.popSize)", "", [])
row("E", "originalAVOA", "OriginalAVOA", 5, "c.popSize c.popSize c.popSize", "p", [])
