row("T", "originalAGTO", "OriginalAGTO", 5, "c.popSize (c.popSize + c.popSize) (c.popSize + c.popSize)", "p", [])
row("T", "mGTO", "MGTO", 5, "c.popSize (c.popSize + c.popSize + c.popSize) (c.popSize + c.popSize + c.popSize)", "p", [])
row("T", "originalGTO", "OriginalGTO", 5, "c.popSize (c.popSize + c.popSize + c.popSize) (c.popSize + c.popSize + c.popSize)", "p", [])
row("T", "matlab102GTO", "Matlab102GTO", 5, "c.popSize (c.popSize + c.popSize + c.popSize) (c.popSize + c.popSize + c.popSize)", "", [])
row("T", "matlab101GTO", "Matlab101GTO", 5, "c.popSize (c.popSize * (c.popSize - 1) + c.popSize + c.popSize * (c.popSize - 1)) (c.popSize * (c.popSize - 1) + c.popSize + c.popSize * (c.popSize - 1))", "", [])
row("E", "originalWSO", "OriginalWSO", 5, "c.popSize c.popSize c.popSize", "p", [('hx', '(OriginalWSO.Indexes c)')])
row("T", "originalPSS", "OriginalPSS", 5, "!c.popSize (c.popSize + c.popSize) c.popSize c.popSize", "p", [('hm', '(p.mc = false)')])
row("E", "originalMSO", "OriginalMSO", 5, "c.popSize c.popSize (c.popSize - 1 + c.popSize)", "", [])
row("T", "originalOrcaPA", "OriginalOrcaPA", 5, "c.popSize (c.popSize + c.popSize) (c.popSize + c.popSize + c.popSize)", "p", [])
row("X", "originalNRO", "OriginalNRO", 5, "c.popSize (c.popSize + c.popSize + c.popSize) (c.popSize + c.popSize + c.popSize)", "", [], err="[.value]")
row("X", "originalSquirrelSA", "OriginalSquirrelSA", 5, "c.popSize c.popSize c.popSize", "p", [('hf', '(2 ≤ p.food ∧ p.food + 3 ≤ c.popSize)')], err="[.type]")
