row("E", "improvedLCO", "ImprovedLCO", 5, "c.popSize (c.popSize + c.popSize / 2 + c.popSize / 2) (c.popSize + c.popSize)", "", [])
row("E", "devEPC", "DevEPC", 5, "c.popSize 0 (c.popSize * c.popSize)", "p", [])
row("X", "qleSCA", "QleSCA", 5, "c.popSize c.popSize c.popSize", "p", [], err="[.stopIteration]")
row("E", "originalILA", "OriginalILA", 5, "c.popSize (c.popSize * 2) (c.popSize * 2)", "p", [], before="Framed.preBefore")
