row("E", "originalCEO", "OriginalCEO", 5, "c.popSize c.popSize (c.popSize + c.popSize)", "p", [])
row("E", "originalSFOA", "OriginalSFOA", 5, "c.popSize c.popSize c.popSize", "p", [('hd', '(0 < d)')])
row("E", "originalEEFO", "OriginalEEFO", 5, "c.popSize c.popSize c.popSize", "", [('hd', '(0 < d)')])
row("E", "devGCO", "DevGCO", 5, "c.popSize c.popSize c.popSize", "p", [])
row("E", "originalGCO", "OriginalGCO", 5, "c.popSize c.popSize c.popSize", "p", [])
row("E", "originalRUN", "OriginalRUN", 5, "c.popSize c.popSize (c.popSize * 3)", "", [('hd', '(0 < d)')])
row("E", "originalGBO", "OriginalGBO", 5, "c.popSize c.popSize c.popSize", "p", [])
row("T", "originalGRSA", "OriginalGRSA", 5, "c.popSize c.popSize (c.popSize + c.popSize)", "p", [('hp', '(1 ≤ p.geometries ∧ p.geometries ≤ c.popSize / 2)')], before="Framed.preBefore")
row("T", "originalEP", "OriginalEP", 5, "c.popSize c.popSize c.popSize", "p", [])
row("T", "levyEP", "LevyEP", 5, "c.popSize (c.popSize + c.popSize / 2) (c.popSize + c.popSize / 2)", "p", [])
row("T", "originalAHO", "OriginalAHO", 5, "c.popSize 0 (c.popSize * (c.popSize + 1))", "p", [('hd', '(0 < d)')])
