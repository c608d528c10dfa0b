row("E", "originalPSO", "OriginalPSO", 5, "c.popSize c.popSize c.popSize", "p", [])
row("E", "aIWPSO", "AIW_PSO", 5, "c.popSize c.popSize c.popSize", "p", [])
row("E", "lDWPSO", "LDW_PSO", 5, "c.popSize c.popSize c.popSize", "p", [])
row("E", "pPSO", "P_PSO", 5, "c.popSize c.popSize c.popSize", "", [])
row("E", "hPSOTVAC", "HPSO_TVAC", 5, "c.popSize c.popSize c.popSize", "p", [])
row("T", "cPSO", "C_PSO", 5, "c.popSize (c.popSize + 1 + (c.popSize - c.popSize / 5)) (c.popSize + 1 + (c.popSize - c.popSize / 5))", "p", [])
row("E", "cLPSO", "CL_PSO", 5, "c.popSize c.popSize c.popSize", "p", [])
