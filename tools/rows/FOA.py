for _n, _c in (("OriginalFOA", "originalFOA"), ("DevFOA", "devFOA")):
    row("V", _c, _n, 5, NNN, err="[.value]")
    row("L", _c, _n, 5, NNN, "", [("hm", "(c.swarmLike = true)"), ("hu", "(∀ j, 0 ≤ c.P.ub j)")])
row("V", "whaleFOA", "WhaleFOA", 5, NNN, err="[]")
row("L", "whaleFOA", "WhaleFOA", 5, NNN, "", [("hm", "(c.swarmLike = true)")])
