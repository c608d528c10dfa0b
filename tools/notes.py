STATUS = {}
NOTES = {
 "C25": "Exact rational arithmetic. The index theorem covers every fitness list; the uniform fallback is stated as the very draw integers(0, n).",
 "C26": "int(k_way*len) is computed exactly (floats: not modelled).",
 "C52": "False of the code as stated. Proved for the classes in StaysIn, refuted by runs for those the statement names. OriginalHC is proved in C52_hc_stays_in_box. Open: catalogue lines that put conditions on the parameters say nothing outside them.",
 "C53": "False of the code as stated. Proved for Listed/Contained, refuted by runs for the classes the statement names. Conditions on parameters as for C52.",
 "C62": "The roulette wheel in exact rational arithmetic. Whole runs on two scales are compared in C63.",
 "C63": "Proved for the 52 classes of `RankBased`; the other classes either compute with fitness values or have not been examined. np.argsort is assumed to depend on the order only.",
 "C61": "Calls with and without a termination are not compared: a termination resets the evaluation counter and reads the clock.",
 "C60": "The positive part covers classes whose model sets all attributes anew; that these are all but the five was established by reading the source (DESIGN.md), not by proof. Calls without a termination also inherit the evaluation counter.",
 "C54": "False for many classes. Proved for Elitist, Keeping and Remembers; refuted by runs in Props/Forgets.lean and Props/Forgets2.lean. Every modelled class is on one side or the other; SwarmSA keeps its best point with max_sub_iter 1 and forgets it with 5; OriginalBRO keeps it if positions at distance 0 are equal. Open: other parameter settings of the refuted classes.",
 "C55": "False of the code as stated. Proved for KeepsSize, refuted by runs for the exceptions the statement names. Open: parameter settings outside the conditions of a line.",
 "C57": "False of the code as stated. Proved for AnyModelled; for the classes in MayRaise and Untidy no exception but the listed ones occurs. For SHADE, L_SHADE, WSO, IWO, SSpiderO, CRO, OCRO, SRSR, SAP_DE, EFO, GSKA, FLA and ESO (with at most 16 variables) the conditions of the line are derived from the constructor ranges in exact real arithmetic only; rounding of doubles is not covered. Open: ALO with epoch 1, and whether every listed exception can occur.",
}
