row("E", "devSSA", "DevSSA", 5, "c.popSize (c.popSize + (c.popSize - DevSSA.n2 c p)) (c.popSize + (c.popSize - DevSSA.n2 c p))", "p", [])
row("E", "originalSSA", "OriginalSSA", 5, "c.popSize (c.popSize + (c.popSize - DevSSA.n2 c p)) (c.popSize + (c.popSize - DevSSA.n2 c p))", "p", [])
row("E", "originalSLO", "OriginalSLO", 5, "c.popSize c.popSize c.popSize", "", [])
row("E", "devGSKA", "DevGSKA", 5, "c.popSize c.popSize c.popSize", "p", [('hg', '(DevGSKA.Groups c p.pb)')])
row("E", "originalGSKA", "OriginalGSKA", 5, "c.popSize c.popSize c.popSize", "p", [('hg', '(DevGSKA.Groups c p.pb)')])
row("E", "devFBIO", "DevFBIO", 5, "c.popSize (4 * c.popSize) (4 * c.popSize)", "", [('hd', '(0 < d)')])
row("E", "originalFBIO", "OriginalFBIO", 5, "c.popSize (4 * c.popSize) (4 * c.popSize)", "", [('hd', '(0 < d)')])
row("T", "originalMRFO", "OriginalMRFO", 5, "c.popSize (c.popSize + c.popSize) (c.popSize + c.popSize)", "p", [])
row("T", "wMQIMRFO", "WMQIMRFO", 5, "c.popSize (3 * c.popSize) (3 * c.popSize)", "p", [])
row("T", "originalBA", "OriginalBA", 5, "c.popSize c.popSize c.popSize", "p", [])
row("T", "adaptiveBA", "AdaptiveBA", 5, "c.popSize c.popSize c.popSize", "p", [])
row("E", "devBA", "DevBA", 5, "c.popSize c.popSize (c.popSize + c.popSize)", "p", [])
