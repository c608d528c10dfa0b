row("E", "baseGA", "BaseGA", 5, NNN, "p", [("h10", "10 ≤ c.popSize"), ("hev", "c.popSize % 2 = 0"), ("hp", "p.Pure"), ("h2", "p.Two c.popSize"),
    ("hd", "p.Dims d")], framed="(BaseGA.framed hE p hp)")
row("E", "multiGA", "MultiGA", 5, NNN, "p", [("h10", "10 ≤ c.popSize"), ("hev", "c.popSize % 2 = 0"),
    ("hp", "({ p with multi := true } : GA.Params K).Pure"), ("h2", "p.Two c.popSize"), ("hd", "p.Dims d")],
    framed="(MultiGA.framed hE p hp)")
row("E", "eliteMultiGA", "EliteMultiGA", 5, f"{N} ({N} - e.nBest) {N}", "p e", [("hp", "({ p with multi := true } : GA.Params K).Pure"),
    ("he", "e.Fits { p with multi := true } c.popSize"), ("hd", "p.Dims d")], framed="(EliteMultiGA.framed hE p e hp)")
row("E", "originalGA", "OriginalGA", 5, f"{N} 0 0")
