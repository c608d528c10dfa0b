row("X", "originalCHIO", "OriginalCHIO", 5, "c.popSize c.popSize (c.popSize + c.popSize)", "p", [], err="[.value]")
row("X", "devCHIO", "DevCHIO", 5, "c.popSize c.popSize (c.popSize + c.popSize)", "p", [], err="[.value]")
row("X", "originalWCA", "OriginalWCA", 5, "c.popSize c.popSize (c.popSize + (p.nsr - 1))", "p", [('h2', '(2 ≤ p.nsr ∧ p.nsr ≤ c.popSize)')], err="[.value, .index]")
row("T", "modifiedSLO", "ModifiedSLO", 5, "(c.popSize * 2) c.popSize c.popSize", "", [('hm', '(c.swarmLike = false)')])
row("T", "improvedSLO", "ImprovedSLO", 5, "(c.popSize * 2) c.popSize (c.popSize * 3)", "p", [('hm', '(c.swarmLike = false)')])
