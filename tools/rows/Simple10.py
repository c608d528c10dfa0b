row("T", "originalCSO", "OriginalCSO", 5, "c.popSize c.popSize (c.popSize * (2 * p.smp + 1))", "p", [('hd', '(0 < d)'), ('h2', '(2 ≤ p.smp)'), ('h4', '(p.strategy = 1 → 4 ≤ p.smp)')])
row("T", "originalMA", "OriginalMA", 5, "c.popSize c.popSize (c.popSize + c.popSize * p.maxLocalGens)", "p", [('he', '(c.popSize % 2 = 0)')])
row("T", "originalHGSO", "OriginalHGSO", 5, "c.popSize c.popSize (c.popSize + c.popSize)", "p", [('hn', '(p * (c.popSize / p) = c.popSize)')])
row("T", "originalDOA", "OriginalDOA", 5, "c.popSize c.popSize c.popSize", "", [('hd', '(c.popSize ≤ d)')])
row("T", "originalCCO", "OriginalCCO", 5, "c.popSize c.popSize c.popSize", "p", [], before="Framed.preBefore")
row("E", "eTLBO", "ETLBO", 5, "c.popSize (c.popSize + c.popSize) (c.popSize + c.popSize + c.popSize)", "p", [('hn', '(p < c.popSize)')])
row("T", "improvedTLO", "ImprovedTLO", 5, "c.popSize (c.popSize - p + (c.popSize - p)) (c.popSize - p + (c.popSize - p))", "p", [('h0', '(2 ≤ p)'), ('h1', '(p ∣ c.popSize)'), ('h2', '((p + 1) * (p + 1) ≤ c.popSize)')])
row("T", "devTPO", "DevTPO", 5, "!(c.popSize * DevTPO.leafs c) (c.popSize * DevTPO.leafs c + c.popSize) (c.popSize * DevTPO.leafs c) (c.popSize * DevTPO.leafs c)", "p", [])
row("T", "originalDO", "OriginalDO", 5, "(c.popSize + c.popSize) (c.popSize + c.popSize) (c.popSize + c.popSize)", "", [])
