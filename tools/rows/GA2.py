_S = [("hm", "(c.swarmLike = false)")]
_B = "c.popSize (c.popSize - 1) c.popSize"
row("I", "baseGA", "BaseGA", 5, _B, "p", err="[.value, .index]")
row("I", "multiGA", "MultiGA", 5, _B, "p", err="[.value, .index]")
row("I", "singleGA", "SingleGA", 5, _B, "p", err="[.value, .index]")
row("I", "eliteSingleGA", "EliteSingleGA", 5, "c.popSize (c.popSize - e.nBest) (c.popSize - e.nBest)", "p e", _S, err="[.value, .index]")
row("I", "eliteMultiGA", "EliteMultiGA", 5, "c.popSize (c.popSize - e.nBest) (c.popSize - e.nBest)", "p e", _S, err="[.value, .index]")
row("I", "originalHBO", "OriginalHBO", 5, "c.popSize (c.popSize - 1) (c.popSize - 1)", "p q", err="[.value, .index]")
