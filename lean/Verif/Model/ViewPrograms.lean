import Verif.Model.View
import Verif.Model.Programs
import Verif.Model.CheckedProg
import Verif.Spec.ViewPrograms

/-!
# Programs calling the library, with windows, permutations, decompositions and a choice of algorithms

`Verif.Model.Programs` on the memory of `Verif.Model.View`.  Like those modules this one plays the role of the caller.
-/

namespace M4rie
open M4rie.Spec

structure WPool where
  mats : VPool
  perms : Nat → Option Mzp

/-- what the variables point to -/
def WPool.look (c : WPool) : PPool := ⟨c.mats.look, c.perms⟩

/-- what a call leaves in the memory behind its destination, and in the permutations -/
def WPool.back {K : Type} (c : WPool) (op : POp K) (p : PPool) : WPool :=
  ⟨match op.dest with | none => c.mats | some d => c.mats.put d (p.mats d), p.perms⟩

/-- one call; `mzed_init_window`, `mzd_slice_init_window`, `mzed_free_window`, `mzd_slice_free_window` (mzed.h:187-195, mzd_slice.h:480-492, mzed.h:205-208,
mzd_slice.h:502-508) as in `vcall` -/
def wcall (pl : PLib) (c : WPool) : WOp (Elem pl.ff) → Option (WPool × Out (Elem pl.ff))
  | .call op => (pcall pl c.look op).map fun r => (c.back op r.1, r.2)
  | .window d a lr lc hr hc => (vcall pl.toLib c.mats (.window d a lr lc hr hc)).map fun r => ({ c with mats := r.1 }, r.2)
  | .freeWindow d => (vcall pl.toLib c.mats (.freeWindow d)).map fun r => ({ c with mats := r.1 }, r.2)

/-- a sequence of calls -/
def wrunProgram (pl : PLib) : WPool → List (WOp (Elem pl.ff)) → Option (WPool × List (Out (Elem pl.ff)))
  | c, [] => some (c, [])
  | c, op :: ops => (wcall pl c op).bind fun p => (wrunProgram pl p.1 ops).map fun q => (q.1, p.2 :: q.2)

namespace Chk

/-- one call, every access checked; `mzed_init_window` (mzed.h:187-195), `mzd_slice_init_window` (mzd_slice.h:480-492) -/
def wcall (dbg : Bool) (pl : PLib) (c : WPool) : WOp (Elem pl.ff) → Option (WPool × Out (Elem pl.ff))
  | .call op => (pcall dbg pl c.look op).map fun r => (c.back op r.1, r.2)
  | .window d a lr lc hr hc => match c.mats.look a with
    | some (.packed A) => (window A lr lc hr hc).bind fun _ => M4rie.wcall pl c (.window d a lr lc hr hc)
    | some (.sliced A) => (swindow A lr lc hr hc).bind fun _ => M4rie.wcall pl c (.window d a lr lc hr hc)
    | none => none
  | .freeWindow d => M4rie.wcall pl c (.freeWindow d)

/-- a sequence of calls -/
def wrunProgram (dbg : Bool) (pl : PLib) : WPool → List (WOp (Elem pl.ff)) → Option (WPool × List (Out (Elem pl.ff)))
  | c, [] => some (c, [])
  | c, op :: ops => (wcall dbg pl c op).bind fun p => (wrunProgram dbg pl p.1 ops).map fun q => (q.1, p.2 :: q.2)

end Chk
end M4rie
