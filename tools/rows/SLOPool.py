row("X", "modifiedSLOPool", "ModifiedSLOPool", 5, "!c.popSize (c.popSize * 2) c.popSize c.popSize", "", [("hm", "(c.swarmLike = true)")], err="[.attribute]")
row("X", "improvedSLOPool", "ImprovedSLOPool", 5, "!c.popSize (c.popSize * 2) c.popSize (c.popSize * 3)", "p", [("hm", "(c.swarmLike = true)")], err="[.attribute]")
