row("E", "originalAO", "OriginalAO", 5, "c.popSize c.popSize c.popSize", "", [('he', '(1 < c.epoch)')])
row("E", "aAO", "AAO", 5, "c.popSize c.popSize c.popSize", "p", [('he', '(1 < c.epoch)')])
row("E", "originalARO", "OriginalARO", 5, "c.popSize c.popSize c.popSize", "", [('hd', '(0 < d)')])
row("E", "lARO", "LARO", 5, "c.popSize c.popSize (c.popSize + c.popSize)", "", [('hd', '(0 < d)')])
row("E", "iARO", "IARO", 5, "c.popSize c.popSize c.popSize", "", [('hd', '(0 < d)')])
row("E", "originalBES", "OriginalBES", 5, "c.popSize (c.popSize * 3) (c.popSize * 3)", "p", [])
row("E", "devMVO", "DevMVO", 5, "c.popSize c.popSize c.popSize", "p", [])
row("E", "originalMVO", "OriginalMVO", 5, "c.popSize c.popSize c.popSize", "p", [])
row("E", "originalKOA", "OriginalKOA", 5, "c.popSize c.popSize c.popSize", "p", [])
row("E", "devSMA", "DevSMA", 5, "c.popSize c.popSize c.popSize", "p", [])
row("E", "originalSMA", "OriginalSMA", 5, "c.popSize c.popSize c.popSize", "p", [])
row("E", "devSBO", "DevSBO", 5, "c.popSize c.popSize c.popSize", "p", [])
row("E", "originalFOX", "OriginalFOX", 5, "c.popSize c.popSize c.popSize", "p", [])
row("E", "devFOX", "DevFOX", 5, "c.popSize c.popSize c.popSize", "p", [])
row("E", "originalDandelionO", "OriginalDandelionO", 5, "c.popSize c.popSize c.popSize", "", [('he', '(1 < c.epoch)')])
row("E", "devDandelionO", "DevDandelionO", 5, "c.popSize c.popSize c.popSize", "", [])
row("E", "originalINFO", "OriginalINFO", 5, "c.popSize c.popSize c.popSize", "", [('h6', '(6 ≤ c.popSize)')])
row("E", "originalTLO", "OriginalTLO", 5, "c.popSize (c.popSize * 2) (c.popSize * 2)", "", [])
row("E", "originalALO", "OriginalALO", 5, "c.popSize c.popSize c.popSize", "", [('he', '(1 < c.epoch)')])
row("E", "devALO", "DevALO", 5, "c.popSize c.popSize c.popSize", "", [])
row("E", "originalBBO", "OriginalBBO", 5, "c.popSize c.popSize c.popSize", "p", [])
row("E", "devBBO", "DevBBO", 5, "c.popSize c.popSize c.popSize", "p", [])
row("T", "originalNMRA", "OriginalNMRA", 5, "c.popSize (c.popSize * 2) (c.popSize * 2)", "p", [])
row("T", "improvedNMRA", "ImprovedNMRA", 5, "c.popSize (c.popSize * 2) (c.popSize * 2)", "p", [('hd', '(2 ≤ d)')])
