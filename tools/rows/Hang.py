row("X", "originalHCO", "OriginalHCO", 5, "!(c.popSize + c.popSize) (c.popSize + c.popSize + c.popSize * p.fuel) c.popSize c.popSize", "p", [], err="[.hang]")
row("X", "devSMO", "DevSMO", 5, "c.popSize (c.popSize + DevSMO.G c p * DevSMO.gSize c p) (c.popSize + DevSMO.G c p * DevSMO.gSize c p + c.popSize)", "p", [("hd", "(0 < d)"), ("hm", "(2 ≤ p.maxGroups)")], err="[.index, .value, .hang]", wok="wokAny")
row("X", "devSMOEven", "DevSMO", 5, "c.popSize (c.popSize + DevSMO.G c p * DevSMO.gSize c p) (c.popSize + DevSMO.G c p * DevSMO.gSize c p + c.popSize)", "p", [("hd", "(0 < d)"), ("hm", "(2 ≤ p.maxGroups)"), ("he", "(DevSMO.Even c p)")], err="[.hang]")
