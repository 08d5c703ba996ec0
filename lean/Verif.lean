import Verif.Props.Field
import Verif.Props.Irred
import Verif.Props.Packed
import Verif.Props.Echelon
import Verif.Props.NewtonJohn
import Verif.Props.Trsm
import Verif.Props.TrsmRec
import Verif.Props.Ple
import Verif.Props.Strassen
import Verif.Props.Slice
import Verif.Props.Kara
import Verif.Props.Perm
import Verif.Props.PleRec
import Verif.Props.Blm
import Verif.Props.MzdPoly
import Verif.Props.Entry
import Verif.Props.History
import Verif.Props.Programs
import Verif.Props.ProgramsSolve
import Verif.Props.View
import Verif.Props.Print
import Verif.Props.Heap
import Verif.Props.Blocks
import Verif.Props.Checked
import Verif.Props.CheckedRec
import Verif.Props.CheckedSlice
import Verif.Props.CheckedPle
import Verif.Props.CheckedProg
import Verif.Props.ViewPrograms
import Verif.Props.Output
import Verif.Props.OutputSlice
import Verif.Props.PolyHistory
import Verif.Props.Words
import Verif.Props.Schedule
import Verif.Props.ScheduleWin
import Verif.Props.Laws
import Verif.Props.Random
import Verif.Props.Cost
import Verif.Props.CostPoly
import Verif.Props.CheckedPoly
import Verif.Props.Compare
import Verif.Props.Space
import Verif.Props.Asymptotic
import Verif.Props.Ops
import Verif.Props.CostTrsm
import Verif.Props.CostPle
import Verif.Props.SpaceElim
import Verif.Props.SpaceTrsm
import Verif.Props.Combine
