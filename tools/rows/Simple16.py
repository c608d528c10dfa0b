row("E", "originalSHADE", "OriginalSHADE", 5, "c.popSize c.popSize c.popSize", "p", [('hd', '(0 < d)'), ('ht', '(OriginalSHADE.Tops c)')])
row("E", "lSHADE", "L_SHADE", 5, "c.popSize c.popSize c.popSize", "p", [('hd', '(0 < d)'), ('ht', '(L_SHADE.Tops c)')])
row("E", "originalES", "OriginalES", 5, "c.popSize p.child p.child", "p", [('hp', '(p.child ≤ c.popSize)')])
row("E", "levyES", "LevyES", 5, "c.popSize (p.child + p.child) (p.child + p.child)", "p", [('hp', '(p.child ≤ c.popSize)')])
row("X", "cMAES", "CMA_ES", 5, "c.popSize c.popSize c.popSize", "", [], before="Framed.preBefore", err="[.value]")
row("E", "simpleCMAES", "Simple_CMA_ES", 5, "c.popSize c.popSize c.popSize", "", [])
