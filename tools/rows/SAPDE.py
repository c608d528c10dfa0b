row("R", "sAPDE", "SAP_DE", 8, "c.popSize 0 (16 * c.popSize)", "p", [("hK", "(SAP_DE.Small K)")])
