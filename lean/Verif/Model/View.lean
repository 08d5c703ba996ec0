import Verif.Model.History
import Verif.Spec.View

/-!
# Programs calling the library, with windows

Like `Verif.Model.History`, this plays the role of the caller.  Memory is owned by the matrices; a window variable keeps the rectangle of the matrix it
points into (in C: the row pointers of the matrix, moved).  A call that gets a window works on the words found behind the pointers and what it leaves
there is what the matrix now contains.
-/

namespace M4rie
open M4rie.Spec

structure VPool where
  bufs : Pool
  wins : Nat → Option View

/-- mzed.h:187-195, mzd_slice.h:480-492 the object a window variable points to -/
def Obj.cut (o : Obj) (v : View) : Obj := match o with
  | .packed A => .packed (mzedWindow A v.r v.c (v.r + v.m) (v.c + v.n))
  | .sliced A => .sliced (mzdSliceWindow A v.r v.c (v.r + v.m) (v.c + v.n))

/-- the matrix after the words behind the window have become those of `w` -/
def Obj.paste (o : Obj) (v : View) (w : Obj) : Obj := match o, w with
  | .packed A, .packed W => .packed { A with words := mzdWindowWrite A.words v.r (A.w * v.c) W.words }
  | .sliced A, .sliced W => .sliced (sliceSetWindow A v.r v.c W)
  | o, _ => o

/-- what the variables point to -/
def VPool.look (c : VPool) : Pool := fun k => match c.wins k with
  | some v => (c.bufs v.root).map fun o => o.cut v
  | none => c.bufs k

def VPool.put (c : VPool) (d : Nat) (o : Option Obj) : VPool := match c.wins d, o with
  | some v, some o => { c with bufs := c.bufs.set v.root ((c.bufs v.root).map fun r => r.paste v o) }
  | _, o => { c with bufs := c.bufs.set d o }

/-- one call.  mzed_init_window, mzd_slice_init_window (mzed.h:187-195, mzd_slice.h:480-492) on a window move the row pointers once more;
mzed_free_window, mzd_slice_free_window (mzed.h:205-208, mzd_slice.h:502-508) leave the matrix alone. -/
def vcall (lib : Lib) (c : VPool) : VOp (Elem lib.ff) → Option (VPool × Out (Elem lib.ff))
  | .call op => (call lib c.look op).map fun p => (match op.dest with | none => c | some d => c.put d (p.1 d), p.2)
  | .window d a lr lc hr hc => match c.wins a, c.bufs a with
    | some v, _ => some ({ c with wins := fun k => if k = d then some ⟨v.root, v.r + lr, v.c + lc, hr - lr, hc - lc⟩ else c.wins k }, .unit)
    | none, some _ => some ({ c with wins := fun k => if k = d then some ⟨a, lr, lc, hr - lr, hc - lc⟩ else c.wins k }, .unit)
    | none, none => none
  | .freeWindow d => match c.wins d with
    | some _ => some ({ c with wins := fun k => if k = d then none else c.wins k }, .unit)
    | none => none

/-- a sequence of calls -/
def runViews (lib : Lib) : VPool → List (VOp (Elem lib.ff)) → Option (VPool × List (Out (Elem lib.ff)))
  | c, [] => some (c, [])
  | c, op :: ops => (vcall lib c op).bind fun p => (runViews lib p.1 ops).map fun q => (q.1, p.2 :: q.2)

end M4rie
