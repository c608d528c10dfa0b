row("E", "originalBSA", "OriginalBSA", 5, "c.popSize c.popSize c.popSize", "p", [])
row("E", "originalPO", "OriginalPO", 4, "c.popSize (c.popSize + p.parties) (c.popSize + p.parties)", "p", [('hn', '(c.popSize = p.parties * p.parties)'), ('h2', '(2 ≤ p.parties)')], before="Framed.preBefore")
row("T", "originalBFO", "OriginalBFO", 5, "c.popSize (p.nc * c.popSize) (p.nc * (c.popSize * p.ns + c.popSize))", "p", [('h2', '(c.popSize % 2 = 0)'), ('hns', '(2 ≤ p.ns)')])
row("E", "originalChameleonSA", "OriginalChameleonSA", 5, "c.popSize c.popSize c.popSize", "p", [], before="Framed.preBefore")
row("T", "iChameleonSA", "IChameleonSA", 5, "c.popSize (3 * c.popSize) (3 * c.popSize)", "p", [])
