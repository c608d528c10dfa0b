row("E", "devHS", "DevHS", 5, "c.popSize c.popSize c.popSize", "p", [('hu', '(∀ j, 0 ≤ c.P.ub j)')])
row("E", "originalHS", "OriginalHS", 5, "c.popSize c.popSize c.popSize", "p", [])
row("E", "originalWOA", "OriginalWOA", 5, "c.popSize c.popSize c.popSize", "", [])
row("E", "devWOA", "DevWOA", 5, "c.popSize c.popSize c.popSize", "", [])
row("T", "hIWOA", "HI_WOA", 5, "c.popSize c.popSize (c.popSize + c.popSize / 2)", "p", [], before="Framed.pure")
row("E", "originalPOA", "OriginalPOA", 5, "c.popSize (2 * c.popSize) (2 * c.popSize)", "", [])
row("E", "devVCS", "DevVCS", 5, "c.popSize (3 * c.popSize) (3 * c.popSize)", "p", [])
row("E", "originalVCS", "OriginalVCS", 5, "c.popSize (3 * c.popSize) (3 * c.popSize)", "p", [])
row("E", "originalSPBO", "OriginalSPBO", 5, "c.popSize (d * c.popSize) (d * c.popSize)", "", [])
row("E", "devSPBO", "DevSPBO", 5, "c.popSize c.popSize c.popSize", "", [])
row("E", "originalAOA", "OriginalAOA", 10, "c.popSize c.popSize c.popSize", "p", [])
row("E", "originalCEM", "OriginalCEM", 10, "c.popSize c.popSize c.popSize", "p", [])
row("T", "originalEO", "OriginalEO", 5, "c.popSize (1 + c.popSize) (1 + c.popSize)", "", [], before="Framed.pure")
row("T", "modifiedEO", "ModifiedEO", 5, "c.popSize (1 + c.popSize + 2 * (c.popSize / 3)) (1 + c.popSize + 2 * (c.popSize / 3))", "", [], before="Framed.pure")
row("T", "adaptiveEO", "AdaptiveEO", 5, "c.popSize (1 + c.popSize) (1 + c.popSize)", "", [], before="Framed.pure")
