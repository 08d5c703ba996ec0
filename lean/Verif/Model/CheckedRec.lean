import Verif.Model.Checked
import Verif.Model.Strassen

/-!
# Strassen multiplication with every window and operand checked

The checked semantics of `Checked.lean` for `strassen.c`: a window must lie inside its parent and start at a word boundary
(M4RI's precondition), its bit positions must not overflow `int`, `_mzed_add` gets three matrices of the same dimensions,
the base case is the checked `_mzed_mul_newton_john`.  Simplification: the C code makes all windows of one level first and then
uses them; here the windows of the result are checked at each use (their checks depend on the dimensions only).
-/

namespace M4rie.Chk

/-- mzed.h:187-195 `mzed_init_window(A,lowr,lowc,highr,highc)`; M4RI: `mzd_init_window` needs a word boundary and bounds
inside the matrix. -/
def window (A : Mzed) (lowr lowc highr highc : Nat) : Option Mzed :=
  (int? (A.w * lowc)).bind fun lc =>
  (int? (A.w * highc)).bind fun hc =>
  (need (lc % 64 = 0 ∧ lowr ≤ highr ∧ highr ≤ A.nrows ∧ lc ≤ hc ∧ hc ≤ A.bitCols)).bind fun _ =>
  some (mzedWindow A lowr lowc highr highc)

/-- mzed.c:28-37 `mzed_init(ff,m,n)`. -/
def init (ff : Gf2e) (fid m n : Nat) : Option Mzed := (int? (degreeToW ff.degree * n)).bind fun _ => some (mzedInit ff fid m n)

/-- mzed.c:68-71 `_mzed_add(C,A,B)`; M4RI: `_mzd_add` needs three matrices of the same dimensions. -/
def addRaw (C A B : Mzed) : Option Mzed :=
  (need (C.nrows = A.nrows ∧ C.bitCols = A.bitCols ∧ B.nrows = A.nrows ∧ B.bitCols = A.bitCols)).bind fun _ => some (mzedAddRaw C A B)

/-- run `f` on the window of `C` (mzed.h:187-195) and keep its effect on the shared memory -/
def onWindow (C : Mzed) (lr lc hr hc : Nat) (f : Mzed → Option Mzed) : Option Mzed :=
  (window C lr lc hr hc).bind fun W => (f W).map fun W => { C with words := mzdWindowWrite C.words lr (C.w * lc) W.words }

/-- strassen.c:76-132 (`strassenMulStep`). -/
def strassenMulStep (mul : Mzed → Mzed → Mzed → Option Mzed) (C A B : Mzed) (m k n : Nat) : Option Mzed := do
  let A11 ← window A 0 0 m k
  let A12 ← window A 0 k m (2 * k)
  let A21 ← window A m 0 (2 * m) k
  let A22 ← window A m k (2 * m) (2 * k)
  let B11 ← window B 0 0 k n
  let B12 ← window B 0 n k (2 * n)
  let B21 ← window B k 0 (2 * k) n
  let B22 ← window B k n (2 * k) (2 * n)
  let c11 := fun C => window C 0 0 m n
  let c21 := fun C => window C m 0 (2 * m) n
  let c22 := fun C => window C m n (2 * m) (2 * n)
  let on11 := fun C => onWindow C 0 0 m n
  let on12 := fun C => onWindow C 0 n m (2 * n)
  let on21 := fun C => onWindow C m 0 (2 * m) n
  let on22 := fun C => onWindow C m n (2 * m) (2 * n)
  let Wmk ← init A.ff A.fid m k
  let Wkn ← init A.ff A.fid k n
  let Wkn ← addRaw Wkn B22 B12
  let Wmk ← addRaw Wmk A22 A12
  let C ← on21 C fun W => mul W Wmk Wkn
  let Wmk ← addRaw Wmk A22 A21
  let Wkn ← addRaw Wkn B22 B21
  let C ← on22 C fun W => mul W Wmk Wkn
  let Wkn ← addRaw Wkn Wkn B12
  let Wmk ← addRaw Wmk Wmk A12
  let C ← on11 C fun W => mul W Wmk Wkn
  let Wmk ← addRaw Wmk Wmk A11
  let C ← on12 C fun W => mul W Wmk B12
  let C ← on12 C fun W => (c22 C).bind fun V => addRaw W W V
  -- Wmk = mzed_mul_strassen(NULL, A12, B21, cutoff): _mzed_mul_init checks the dimensions
  let _ ← need (A12.ncols = B21.nrows ∧ A12.fid = B21.fid)
  let Wmk ← init A12.ff A12.fid A12.nrows B21.ncols
  let Wmk ← mul Wmk A12 B21
  let C ← on11 C fun W => addRaw W W Wmk
  let C ← on12 C fun W => (c11 C).bind fun V => addRaw W V W
  let C ← on11 C fun W => (c21 C).bind fun V => addRaw W V W
  let Wkn ← addRaw Wkn Wkn B11
  let C ← on21 C fun W => mul W A21 Wkn
  let C ← on21 C fun W => (c11 C).bind fun V => addRaw W V W
  let C ← on22 C fun W => (c11 C).bind fun V => addRaw W W V
  let C ← on11 C fun W => mul W A11 B11
  on11 C fun W => addRaw W W Wmk

/-- strassen.c:220-272 (`strassenAddmulStep`). -/
def strassenAddmulStep (mul addmul : Mzed → Mzed → Mzed → Option Mzed) (C A B : Mzed) (m k n : Nat) : Option Mzed := do
  let A11 ← window A 0 0 m k
  let A12 ← window A 0 k m (2 * k)
  let A21 ← window A m 0 (2 * m) k
  let A22 ← window A m k (2 * m) (2 * k)
  let B11 ← window B 0 0 k n
  let B12 ← window B 0 n k (2 * n)
  let B21 ← window B k 0 (2 * k) n
  let B22 ← window B k n (2 * k) (2 * n)
  let on11 := fun C => onWindow C 0 0 m n
  let on12 := fun C => onWindow C 0 n m (2 * n)
  let on21 := fun C => onWindow C m 0 (2 * m) n
  let on22 := fun C => onWindow C m n (2 * m) (2 * n)
  let S ← init A.ff A.fid m k
  let T ← init A.ff A.fid k n
  let U ← init A.ff A.fid m n
  let S ← addRaw S A22 A21
  let T ← addRaw T B22 B21
  let U ← mul U S T
  let C ← on22 C fun W => addRaw W U W
  let C ← on12 C fun W => addRaw W U W
  let U ← mul U A12 B21
  let C ← on11 C fun W => addRaw W U W
  let C ← on11 C fun W => addmul W A11 B11
  let S ← addRaw S S A12
  let T ← addRaw T T B12
  let U ← addmul U S T
  let C ← on12 C fun W => addRaw W W U
  let S ← addRaw S A11 S
  let C ← on12 C fun W => addmul W S B12
  let T ← addRaw T B11 T
  let C ← on21 C fun W => addmul W A21 T
  let S ← addRaw S A22 A12
  let T ← addRaw T B22 B12
  let U ← addmul U S T
  let C ← on21 C fun W => addRaw W W U
  on22 C fun W => addRaw W W U

/-- strassen.c:146-182 / 289-323 (`strassenRest`). -/
def strassenRest (nj : Mzed → Mzed → Mzed → Option Mzed) (clear : Bool) (C A B : Mzed) (m k n m2 k2 n2 : Nat) : Option Mzed :=
  let cl := fun W => if clear then setUi W 0#64 else some W
  (if n > n2 then (window B 0 n2 k n).bind fun V => onWindow C 0 n2 m n fun W => (cl W).bind fun W => nj W A V else some C).bind fun C =>
  (if m > m2 then (window A m2 0 m k).bind fun U => (window B 0 0 k n2).bind fun V => onWindow C m2 0 m n2 fun W => (cl W).bind fun W => nj W U V
    else some C).bind fun C =>
  if k > k2 then (window A 0 k2 m2 k).bind fun U => (window B k2 0 k n2).bind fun V => onWindow C 0 0 m2 n2 fun W => nj W U V else some C

/-- strassen.c:43-185 `_mzed_mul_strassen(C,A,B,cutoff)`; `nj` is the checked `_mzed_mul_newton_john`. -/
def mulStrassenF (nj : Mzed → Mzed → Mzed → Option Mzed) (cutoff : Int) : Nat → Mzed → Mzed → Mzed → Option Mzed
  | 0, _, _, _ => none
  | fuel + 1, C, A, B =>
    if C.nrows = 0 ∧ C.ncols = 0 then some C
    else if strassenBase cutoff A.nrows A.ncols B.ncols then
      (init C.ff C.fid C.nrows C.ncols).bind fun Cbar => (nj Cbar A B).bind fun Cbar => mzedCopy? C Cbar
    else
      let m := halfDim A.w A.nrows
      let k := halfDim A.w A.ncols
      let n := halfDim A.w B.ncols
      (strassenMulStep (mulStrassenF nj cutoff fuel) C A B m k n).bind fun C =>
        strassenRest nj true C A B A.nrows A.ncols B.ncols (2 * m) (2 * k) (2 * n)

/-- strassen.c:187-326 `_mzed_addmul_strassen(C,A,B,cutoff)`. -/
def addmulStrassenF (nj : Mzed → Mzed → Mzed → Option Mzed) (cutoff : Int) : Nat → Mzed → Mzed → Mzed → Option Mzed
  | 0, _, _, _ => none
  | fuel + 1, C, A, B =>
    if C.nrows = 0 ∧ C.ncols = 0 then some C
    else if strassenBase cutoff A.nrows A.ncols B.ncols then
      (init C.ff C.fid C.nrows C.ncols).bind fun Cbar => (mzedCopy? Cbar C).bind fun Cbar => (nj Cbar A B).bind fun Cbar => mzedCopy? C Cbar
    else
      let m := halfDim A.w A.nrows
      let k := halfDim A.w A.ncols
      let n := halfDim A.w B.ncols
      (strassenAddmulStep (mulStrassenF nj cutoff fuel) (addmulStrassenF nj cutoff fuel) C A B m k n).bind fun C =>
        strassenRest nj false C A B A.nrows A.ncols B.ncols (2 * m) (2 * k) (2 * n)

/-- mzed.c:74-88 `_mzed_mul_init(C,A,B,clear)`, `C != NULL`. -/
def mulInit (C A B : Mzed) (clear : Bool) : Option Mzed :=
  if A.ncols ≠ B.nrows ∨ A.fid ≠ B.fid then none
  else if C.fid ≠ A.fid ∨ C.nrows ≠ A.nrows ∨ C.ncols ≠ B.ncols then none
  else if clear then setUi C 0#64 else some C

/-- strassen.c:33-36 `mzed_mul_strassen(C,A,B,cutoff)`, `C != NULL`. -/
def mulStrassen (dbg : Bool) (cb : Codebook) (bs : Nat) (C A B : Mzed) (cutoff : Int) : Option Mzed :=
  (mulInit C A B true).bind fun C => mulStrassenF (mulNewtonJohn dbg cb bs) cutoff (strassenDepth A B) C A B

/-- strassen.c:38-41 `mzed_addmul_strassen(C,A,B,cutoff)`, `C != NULL`. -/
def addmulStrassen (dbg : Bool) (cb : Codebook) (bs : Nat) (C A B : Mzed) (cutoff : Int) : Option Mzed :=
  (mulInit C A B false).bind fun C => addmulStrassenF (mulNewtonJohn dbg cb bs) cutoff (strassenDepth A B) C A B

end M4rie.Chk
