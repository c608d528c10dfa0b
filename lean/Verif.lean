import Verif.Env
import Verif.Select
import Verif.Draws
import Verif.SelectLemmas
import Verif.Witness
import Verif.DrawLemmas
import Verif.Props.Select
import Verif.Space
import Verif.SpaceSpec
import Verif.SpaceLemmas
import Verif.SpaceLemmas2
import Verif.SpaceWitness
import Verif.Props.Space1
import Verif.Props.Space2
import Verif.Props.Space3
import Verif.Transfer
import Verif.Target
import Verif.Valid
import Verif.Term
import Verif.Props.Transfer
import Verif.Props.Target
import Verif.Props.Valid
import Verif.Opt
import Verif.Hoare
import Verif.OptLemmas
import Verif.SolveLemmas
import Verif.Contract
import Verif.Comb
import Verif.CombLemmas
import Verif.Frame
import Verif.Tactics
import Verif.Alg.Base
import Verif.Alg.Rules
import Verif.Alg.GWO
import Verif.RunLemmas
import Verif.OptWitness
import Verif.Props.Solve
import Verif.Props.Solve2
import Verif.Chaotic
import Verif.Heap
import Verif.Props.Heap
import Verif.NaN
import Verif.Props.NaN
import Verif.Io
import Verif.Props.Io
import Verif.RealNum
import Verif.Props.Reals
import Verif.Props.Fuzzy
import Verif.Tuner
import Verif.Props.Tuner
import Verif.Props.Tuner2
import Verif.Multitask
import Verif.Props.Multitask
import Verif.Alg.Weak
import Verif.Alg.GWO2
import Verif.Alg.Kit
import Verif.Alg.Cover
import Verif.Alg.Hold
import Verif.Alg.DE
import Verif.Alg.SA
import Verif.Alg.Raise
import Verif.Alg.Kit2
import Verif.Alg.Kit3
import Verif.Alg.Kit4
import Verif.Alg.Kit5
import Verif.Alg.Simple1
import Verif.Alg.Simple2
import Verif.Alg.Simple3
import Verif.Alg.Simple4
import Verif.Alg.Simple5
import Verif.Alg.Kit7
import Verif.Alg.Simple6
import Verif.Alg.Simple7
import Verif.Alg.Kit9
import Verif.Alg.Simple8
import Verif.Alg.Kit10
import Verif.Alg.Simple9
import Verif.Alg.Kit11
import Verif.Alg.Simple10
import Verif.Alg.Kit12
import Verif.Alg.Simple11
import Verif.Alg.Kit13
import Verif.Alg.Simple12
import Verif.Alg.Simple13
import Verif.Alg.Simple14
import Verif.Alg.Simple15
import Verif.Alg.Kit16
import Verif.Alg.ORCA
import Verif.Alg.Kit17
import Verif.Alg.Simple16
import Verif.Alg.Simple17
import Verif.Alg.Simple18
import Verif.Alg.SARO
import Verif.Alg.Kit19
import Verif.Alg.Simple19
import Verif.Alg.SAPDE
import Verif.Alg.Kit20
import Verif.Alg.Simple20
import Verif.Alg.Simple21
import Verif.Alg.LSHADEcn
import Verif.Alg.Risky
import Verif.Alg.Hang
import Verif.Alg.Light
import Verif.Alg.Careless
import Verif.Alg.Sharing
import Verif.Alg.Enhanced
import Verif.Alg.FOA
import Verif.Alg.Exact
import Verif.Alg.FFA
import Verif.Alg.GA
import Verif.Alg.Raise2
import Verif.RunEnv
import Verif.Catalogue
import Verif.Props.Algorithms
import Verif.Inhabited
import Verif.Props.Algorithms2
import Verif.Props.InPlace
import Verif.Props.Runs
import Verif.Bridge
import Verif.Props.Declared
import Verif.Props.Untidy
import Verif.Alg.Kit21
import Verif.Alg.GA2
import Verif.Alg.Kit22
import Verif.Alg.Tolerant
import Verif.Alg.Tolerant2
import Verif.Alg.Raise3
import Verif.Props.Raises
import Verif.Alg.Raise4
import Verif.Alg.Raise5
import Verif.Alg.Uneven
import Verif.Props.Raises2
import Verif.RealEnv
import Verif.Alg.ExactReal
import Verif.Props.Exact
import Verif.Props.Misaligned
import Verif.Climb
import Verif.Climbs1
import Verif.Climbs2
import Verif.Climbs3
import Verif.ClimbsMore
import Verif.Climber
import Verif.SpecRank
import Verif.Props.Ranks
import Verif.Keep
import Verif.Keepers
import Verif.Keepers2
import Verif.Keepers3
import Verif.KeepFit
import Verif.KeepGA
import Verif.KeepBRO
import Verif.TapeExp
import Verif.Props.Keeps
import Verif.TapeEnv
import Verif.Props.Forgets
import Verif.Props.Forgets2
import Verif.Alg.SingleMode
import Verif.Props.Outside
import Verif.Alg.ICA
import Verif.Props.Empires
import Verif.Props.Raises3
import Verif.Props.Sizes
import Verif.Alg.Raise6
import Verif.Props.Raises4
import Verif.Props.Leaves
import Verif.Props.Ties
import Verif.Reuse
import Verif.Props.Reuse
import Verif.Alg.SLOPool
import Verif.StopLemmas
import Verif.Props.Stop
import Verif.Alg.ESOReal
import Verif.StartRaise
import Verif.Props.Raises5
import Verif.Alg.FLAReal
import Verif.Props.Raises6
import Verif.Props.Dual
import Verif.Alg.Raise7
import Verif.Props.Raises7
import Verif.Rescale
import Verif.Alg.RankBased
import Verif.Props.Rescaled
