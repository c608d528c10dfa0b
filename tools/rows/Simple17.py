row("E", "cleverBookBeesA", "CleverBookBeesA", 5, "c.popSize c.popSize (c.popSize * p.most)", "p", [('hd', '(2 ≤ d)'), ('h1', '(1 ≤ p.elites)'), ('h2', '(1 ≤ p.others)')])
row("T", "originalWOAmM", "OriginalWOAmM", 5, "c.popSize (c.popSize * 3) (c.popSize * 3 + OriginalWOAmM.restarts c p.rate)", "p", [], before="Framed.preBefore")
row("E", "devWOAmM", "DevWOAmM", 5, "c.popSize (c.popSize * 3) (c.popSize * 3 + OriginalWOAmM.restarts c p.rate)", "p", [('hm', '(c.mode = .single)')], before="Framed.preBefore")
row("T", "originalCRO", "OriginalCRO", 5, "c.popSize 0 c.popSize", "p", [('hd', '(2 ≤ d)'), ('hr', '(OriginalCRO.Rates c p)')])
row("T", "oCRO", "OCRO", 5, "c.popSize 0 (c.popSize + c.popSize + c.popSize + c.popSize)", "p", [('hd', '(2 ≤ d)'), ('hr', '(OriginalCRO.Rates c p.base)')])
