_two = "(c.popSize + c.popSize) (c.popSize + c.popSize) (c.popSize + c.popSize * 2)"
row("T", "enhancedTWO", "EnhancedTWO", 5, _two, "", [("hm", "(c.swarmLike = true)")])
row("V", "enhancedTWO", "EnhancedTWO", 5, _two, "", err="[]")
