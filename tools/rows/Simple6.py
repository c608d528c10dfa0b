row("E", "originalBWO", "OriginalBWO", 5, "c.popSize c.popSize (c.popSize + c.popSize)", "", [('hd', '(0 < d)')])
row("E", "originalFA", "OriginalFA", 5, "c.popSize p.mSparks (c.popSize * (c.popSize * OriginalFA.cap p) + (c.popSize * OriginalFA.cap p + p.mSparks))", "p", [('hd', '(0 < d)'), ('hr', '(RoundMono K)')])
row("E", "originalBWOA", "OriginalBWOA", 5, "c.popSize (p.nPar * 2 + p.nMut) (p.nPar * 2 + p.nMut)", "p", [('hd', '(0 < d)'), ('hp', '(2 ≤ p.nPar)')])
row("T", "originalESO", "OriginalESO", 5, "c.popSize (c.popSize * 2) (c.popSize * 3)", "", [('hq', '(OriginalESO.Calm c)')])
row("E", "originalFDO", "OriginalFDO", 5, "c.popSize c.popSize (c.popSize * 3)", "p", [])
row("T", "originalESOA", "OriginalESOA", 5, "c.popSize (c.popSize * 3) (c.popSize * 3)", "", [])
row("E", "devSOA", "DevSOA", 5, "c.popSize c.popSize c.popSize", "p", [])
row("E", "originalSOA", "OriginalSOA", 5, "c.popSize c.popSize c.popSize", "p", [])
row("E", "originalCDDO", "OriginalCDDO", 5, "c.popSize c.popSize c.popSize", "p", [('hd', '(0 < d)'), ('hp', '(1 ≤ p.pattern ∧ p.pattern ≤ c.popSize)'), ('hb', '(Num.trunc (Vec.at c.P.lb 0) < Num.trunc (Vec.at c.P.ub 0 + 1))')], before="Framed.preBefore")
row("E", "originalDBO", "OriginalDBO", 5, "c.popSize c.popSize c.popSize", "p", [], before="Framed.preBefore")
row("E", "originalSOO", "OriginalSOO", 5, "c.popSize (c.popSize + c.popSize) (c.popSize + c.popSize)", "", [])
row("T", "originalGJA", "OriginalGJA", 5, "c.popSize c.popSize (c.popSize + c.popSize)", "p", [])
row("E", "originalArchOA", "OriginalArchOA", 5, "c.popSize c.popSize c.popSize", "p", [('hsw', '(c.swarmLike = true)')])
row("E", "originalAPO", "OriginalAPO", 5, "c.popSize c.popSize c.popSize", "p", [('hd', '(0 < d)')])
row("T", "originalCOA", "OriginalCOA", 5, "c.popSize (p.packs * (p.coyotes + 1)) (p.packs * (p.coyotes + 1))", "p", [('hn', '(p.packs * p.coyotes = c.popSize)'), ('h3', '(3 ≤ p.coyotes)')])
row("T", "originalASO", "OriginalASO", 5, "c.popSize c.popSize c.popSize", "p", [])
row("E", "devSSpiderA", "DevSSpiderA", 5, "c.popSize c.popSize c.popSize", "p", [])
