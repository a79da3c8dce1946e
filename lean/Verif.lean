import Verif.Thrust
import Verif.SortLemmas
import Verif.Coal.Model
import Verif.Coal.PairLoop
import Verif.Coal.PairSum
import Verif.Coal.Lemmas
import Verif.Coal.Outcome
import Verif.Coal.Props
import Verif.Coal.Number
import Verif.Hskpng.Rcyc
import Verif.Hskpng.RcycLemmas
import Verif.Hskpng.RcycProps
import Verif.Hskpng.Remove
import Verif.Hskpng.RemoveProps
import Verif.Grid.Model
import Verif.Grid.Props
import Verif.Grid.Volume
import Verif.Diag.Model
import Verif.Diag.Lemmas
import Verif.Diag.Props
import Verif.Diag.MassDens
import Verif.Diag.Api
import Verif.Bcnd.Model
import Verif.Bcnd.Props
import Verif.Step.Model
import Verif.Step.Props
import Verif.Step.Accept
import Verif.Step.Skeleton
import Verif.Step.Substeps
import Verif.Step.SkeletonLemmas
import Verif.Step.SkeletonProps
import Verif.Step.SkeletonWitness
import Verif.Step.NanCheck
import Verif.Launch.Factory
import Verif.Pool.Model
import Verif.Pool.Props
import Verif.Pool.ApiLang
import Verif.Pool.Api
import Verif.Pool.ApiSpec
import Verif.Pool.ApiAnalysis
import Verif.Pool.ApiChecks
import Verif.Pool.ApiEnum
import Verif.Pool.ApiEnumCond
import Verif.Pool.ApiEnumAsync
import Verif.Pool.ApiEnumRest
import Verif.Pool.ApiAcc
import Verif.Pool.ApiWitness
import Verif.Pool.ApiProps
import Verif.E2L.Model
import Verif.E2L.Props
import Verif.E2L.Halo
import Verif.Distmem.Model
import Verif.Distmem.Props
import Verif.Distmem.Exchange
import Verif.Distmem.Buffers
import Verif.Distmem.Recycle
import Verif.Arrays.Model
import Verif.Arrays.Props
import Verif.Adve.Model
import Verif.Adve.Props
import Verif.Init.Model
import Verif.Init.Props
import Verif.Init.DistAnalysis
import Verif.Init.RangeProps
import Verif.Init.ConstMulti
import Verif.Init.Lognormal
import Verif.Init.Seeds
import Verif.Common.Profiles
import Verif.Rlx.Model
import Verif.Rlx.Props
import Verif.Common.Model
import Verif.Common.Props
import Verif.Common.Koehler
import Verif.Common.Kelvin
import Verif.Toms.Model
import Verif.Toms.Props
import Verif.Toms.Wet
import Verif.Blk1m.Formulae
import Verif.Blk1m.Model
import Verif.Blk1m.ColProps
import Verif.Blk1m.RainEvap
import Verif.Blk1m.RhsProps
import Verif.Blk1m.Koenig
import Verif.Blk1m.PosProps
import Verif.Blk1m.AdjProps
import Verif.Blk1m.ProcProps
import Verif.Blk1m.Termination
import Verif.Blk1m.TermReal
import Verif.Blk1m.DryThermo
import Verif.Blk1m.TermDry
import Verif.Sanity.Model
import Verif.Sanity.Props
import Verif.Blk2m.Formulae
import Verif.Blk2m.Model
import Verif.Blk2m.CellProps
import Verif.Blk2m.SwitchProps
import Verif.Blk2m.ColProps
import Verif.Blk2m.Vterm
import Verif.Rlx.Expected
import Verif.Adve.Transport
import Verif.Adve.TransportProps
import Verif.Cond.Droplet
import Verif.Cond.DropletProps
import Verif.Cond.Growth
import Verif.Cond.Accuracy
import Verif.Common.Tpr
import Verif.Common.Tetens
import Verif.Cond.PerCell
import Verif.Cond.Arrays
import Verif.Cond.PerCellLemmas
import Verif.Cond.PerCellRun
import Verif.Cond.PerCellProps
import Verif.Cond.Strict
import Verif.Cond.PerPart
import Verif.Cond.PerPartLemmas
import Verif.Cond.PerPartProps
import Verif.Cond.Air
import Verif.Cond.Adaptive
import Verif.Cond.AdaptiveProps
import Verif.Cond.AdaptiveStep
import Verif.Ice.Model
import Verif.Ice.Props
import Verif.Ice.History
import Verif.Ice.Laws
import Verif.Turb.Model
import Verif.Turb.Props
import Verif.Toms.Range
import Verif.Chem.Model
import Verif.Chem.Henry
import Verif.Chem.Budget
import Verif.Chem.Dissoc
import Verif.Chem.React
import Verif.Chem.Step
import Verif.Chem.Composition
import Verif.Kernel.Model
import Verif.Kernel.Interp
import Verif.Kernel.Laws
import Verif.Kernel.TabHall
import Verif.Kernel.TabHallDavis
import Verif.Kernel.TabHallPinskyGrav
import Verif.Kernel.TabHallPinskyCu
import Verif.Kernel.TabHallPinskySc
import Verif.Kernel.TabVohlDavis
import Verif.Kernel.Tables
import Verif.Kernel.TablesProps
import Verif.Kernel.Turb
import Verif.Vterm.Model
import Verif.Vterm.Laws
import Verif.Vterm.Step
import Verif.Vterm.Reverse
import Verif.Src.Model
import Verif.Src.Cells
import Verif.Src.Lists
import Verif.Src.Runs
import Verif.Src.Match
import Verif.Src.MatchProps
import Verif.Src.Clash
import Verif.Kernel.Clustering
import Verif.Vterm.Laws2
import Verif.Src.Fresh
import Verif.Src.Stale
import Verif.Hskpng.SortFlag
import Verif.Hskpng.SortFlagProps
import Verif.Rlx.Buffer
import Verif.Src.Room
import Verif.Diag.Activation
import Verif.Diag.ActivationProps
import Verif.Diag.ActivationWit
import Verif.Diag.VelDiv
import Verif.Diag.Rates
import Verif.Diag.Attr
import Verif.MultiGpu.Exchange
import Verif.MultiGpu.Invariant
import Verif.MultiGpu.Props
import Verif.MultiGpu.Barrier
import Verif.MultiGpu.Outbuf
import Verif.Init.Wet
import Verif.Src.Water
import Verif.Py.Props
import Verif.Py.Calls
import Verif.Py.Names
import Verif.Run.HowProps
import Verif.Run.Inside
import Verif.Run.Example
import Verif.Run.Progress
import Verif.Run.Stuck
import Verif.Run.CritWit
import Verif.Run.Dist
import Verif.Run.DistProps
import Verif.Run.DistInside
import Verif.Run.DistExample
import Verif.Icicle.FlowProps
import Verif.Icicle.Driver
import Verif.Icicle.OutOpts
import Verif.Icicle.OutOptsProps
import Verif.Icicle.Choices
import Verif.Mpi.Sem
import Verif.Mpi.Confluence
import Verif.Mpi.Determinacy
import Verif.Mpi.Discipline
import Verif.Mpi.Lockstep
import Verif.Mpi.Segments
import Verif.Mpi.Program
import Verif.Mpi.Bulk
import Verif.Mpi.Canon
import Verif.Mpi.CanonExch
import Verif.Mpi.Counting
import Verif.Mpi.Check
import Verif.Mpi.Schedules
import Verif.Mpi.Refine
import Verif.Mpi.RefineRun
import Verif.Mpi.Halos
import Verif.Mpi.RunSpec
import Verif.Mpi.Props
import Verif.Mpi.Witness
import Verif.Float.Round
import Verif.Float.Model
import Verif.Float.Lemmas
import Verif.Float.Props
import Verif.Float.Guard
import Verif.Float.Place
import Verif.Float.Remote
import Verif.Float.Sub
import Verif.Float.Dt
import Verif.Float.Moment
import Verif.Float.Coal
import Verif.Float.Kappa
import Verif.Float.Sedi
import Verif.Float.Puddle
import Verif.Float.Water
import Verif.Float.Limit
import Verif.Blk2m.Spectra
import Verif.Blk2m.Activation
import Verif.Blk1m.RateProps
import Verif.Bulk.Zip
import Verif.Blk2m.Collect
