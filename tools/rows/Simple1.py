row("E", "originalBMO", "OriginalBMO", 5, NNN, "p")
row("E", "originalFPA", "OriginalFPA", 5, NNN, "p")
row("E", "originalTSA", "OriginalTSA", 5, NNN)
row("E", "originalMGOA", "OriginalMGOA", 5, NNN, "p", [("hd", "0 < d"), ("hk", "OriginalMGOA.nDims d p ≤ d")])
row("E", "originalRIME", "OriginalRIME", 5, NNN, "p")
row("E", "originalSHIO", "OriginalSHIO", 5, NNN)
row("E", "originalCircleSA", "OriginalCircleSA", 5, NNN, "p")
row("E", "originalSCSO", "OriginalSCSO", 5, NNN)
row("E", "originalGJO", "OriginalGJO", 5, NNN)
row("E", "devJA", "DevJA", 5, NNN)
row("E", "originalJA", "OriginalJA", 5, NNN)
row("E", "levyJA", "LevyJA", 5, NNN)
row("E", "devSCA", "DevSCA", 5, NNN)
row("E", "originalSCA", "OriginalSCA", 5, NNN)
row("E", "originalLCO", "OriginalLCO", 5, NNN, "p")
row("E", "devLCO", "DevLCO", 5, NNN, "p")
