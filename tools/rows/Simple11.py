row("E", "originalAEO", "OriginalAEO", 5, "c.popSize (c.popSize + c.popSize) (c.popSize + c.popSize)", "", [])
row("E", "improvedAEO", "ImprovedAEO", 5, "c.popSize (c.popSize + c.popSize) (c.popSize + c.popSize)", "", [])
row("E", "enhancedAEO", "EnhancedAEO", 5, "c.popSize (c.popSize + c.popSize) (c.popSize + c.popSize)", "", [])
row("E", "modifiedAEO", "ModifiedAEO", 5, "c.popSize (c.popSize + c.popSize) (c.popSize + c.popSize)", "", [])
row("E", "augmentedAEO", "AugmentedAEO", 5, "c.popSize (c.popSize + c.popSize) (c.popSize + c.popSize)", "", [])
row("E", "devQSA", "DevQSA", 5, "c.popSize (c.popSize + c.popSize + c.popSize) (c.popSize + c.popSize + c.popSize)", "", [])
row("E", "oppoQSA", "OppoQSA", 5, "c.popSize (c.popSize + c.popSize + c.popSize + c.popSize) (c.popSize + c.popSize + c.popSize + c.popSize)", "", [])
row("E", "levyQSA", "LevyQSA", 5, "c.popSize (c.popSize + c.popSize + c.popSize) (c.popSize + c.popSize + c.popSize)", "", [])
row("E", "improvedQSA", "ImprovedQSA", 5, "c.popSize (c.popSize + c.popSize + c.popSize + c.popSize) (c.popSize + c.popSize + c.popSize + c.popSize)", "", [])
row("E", "originalQSA", "OriginalQSA", 5, "c.popSize (c.popSize + c.popSize + c.popSize) (c.popSize + c.popSize + c.popSize)", "", [])
