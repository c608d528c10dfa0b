row("R", "originalHGSO", "OriginalHGSO", 5, "c.popSize (p * (c.popSize / p)) (p * (c.popSize / p) + c.popSize)", "p", [("h1", "(1 ≤ p)"), ("h5", "(p ≤ c.popSize / 5)")], wok="wokUneven")
row("Y", "originalBSO", "OriginalBSO", 5, "c.popSize (p.base.m * (c.popSize / p.base.m)) (c.popSize + 1)", "p", [("h2", "(2 ≤ p.base.m)"), ("h5", "(p.base.m ≤ c.popSize / 5)")], err="[.index]", wok="wokUneven")
row("R", "improvedTLO", "ImprovedTLO", 5, "c.popSize (p * ImprovedTLO.teamSize c p + p * ImprovedTLO.teamSize c p) (p * ImprovedTLO.teamSize c p + p * ImprovedTLO.teamSize c p)", "p", [("h0", "(2 ≤ p)"), ("h2", "((p + 1) * (p + 1) ≤ c.popSize)")], wok="wokUneven")
