import Mathlib.Algebra.Polynomial.Basic
import Mathlib.Algebra.Polynomial.Coeff
import Mathlib.Data.Matrix.Mul
import Mathlib.Algebra.Field.ZMod

/-!
# Specification: what a sequence of calls on matrices over GF(2)[x] does

A program works on numbered variables that hold matrices of polynomials.  `PolyOp` are the calls; `PolyAllowed s op out s'` says - with Mathlib
matrices over `(ZMod 2)[X]`, without any representation in memory - when the call may be made in the state `s`, what it returns and what it leaves
behind.
-/

namespace M4rie.Spec
open Polynomial

/-- the multiplication algorithms -/
inductive PolyAlg where
  | naive
  | karatsuba
  | ext1

/-- the calls; `d` is the variable written to, `a`, `b` are operands -/
inductive PolyOp where
  /-- `d = mzd_poly_init(deg,m,n)` -/
  | init (d deg m n : Nat)
  /-- `mzd_poly_free(d)` -/
  | free (d : Nat)
  /-- `mzd_write_bit(d->x[t],i,j,v)`: how a user sets a coefficient -/
  | writeBit (d t i j : Nat) (v : Bool)
  /-- `mzd_read_bit(a->x[t],i,j)` -/
  | readBit (a t i j : Nat)
  /-- `mzd_poly_randomize(d)`; `r t i j` are the random bits drawn -/
  | randomize (d : Nat) (r : Nat → Nat → Nat → Bool)
  /-- `_mzd_poly_add(d,a,b,offset)` -/
  | addOffset (d a b offset : Nat)
  /-- `mzd_poly_add(d,a,b)` -/
  | add (d a b : Nat)
  /-- `_mzd_poly_adapt_depth(d,depth)` -/
  | adaptDepth (d depth : Nat)
  /-- `_mzd_poly_addmul_*(d,a,b)` -/
  | addmul (alg : PolyAlg) (d a b : Nat)
  /-- `d = _mzd_poly_addmul_*(NULL,a,b)` -/
  | mul (alg : PolyAlg) (d a b : Nat)
  /-- `mzd_poly_cmp(a,b) == 0` -/
  | equal (a b : Nat)

/-- what a call returns -/
inductive PolyOut where
  | unit
  | bit (b : Bool)
  deriving DecidableEq

/-- a matrix of polynomials, with the number of coefficients in use and the number it was created with -/
structure APoly where
  m : Nat
  n : Nat
  depth : Nat
  cap : Nat
  val : Matrix (Fin m) (Fin n) (ZMod 2)[X]

abbrev APolyState := Nat → Option APoly

def APolyState.set (s : APolyState) (d : Nat) (X : Option APoly) : APolyState := fun k => if k = d then X else s k

/-- the polynomial with the coefficients `f 0, …, f (n-1)` -/
noncomputable def polyOf (n : Nat) (f : Nat → ZMod 2) : (ZMod 2)[X] := ∑ t ∈ Finset.range n, monomial t (f t)

/-- the numbers of coefficients the algorithms are written for -/
def PolyAlg.Domain (da db : Nat) : PolyAlg → Prop
  | .naive => True
  | .karatsuba => da = db ∧ 1 ≤ da ∧ da ≤ 16
  | .ext1 => 1 ≤ da ∧ 1 ≤ db ∧ 3 ≤ da + db - 1 ∧ da + db - 1 ≤ 65536

open Classical in
inductive PolyAllowed (s : APolyState) : PolyOp → PolyOut → APolyState → Prop
  | init (d deg m n : Nat) : s d = none → PolyAllowed s (.init d deg m n) .unit (s.set d (some ⟨m, n, deg + 1, deg + 1, 0⟩))
  | free (d : Nat) {X : APoly} : s d = some X → PolyAllowed s (.free d) .unit (s.set d none)
  | writeBit {d m n e p : Nat} {X : Matrix (Fin m) (Fin n) (ZMod 2)[X]} {t : Nat} (ht : t < e) (i : Fin m) (j : Fin n) (v : Bool) :
      s d = some ⟨m, n, e, p, X⟩ → PolyAllowed s (.writeBit d t i j v) .unit
        (s.set d (some ⟨m, n, e, p, fun a b => if a = i ∧ b = j then (X a b).update t (if v then 1 else 0) else X a b⟩))
  | readBit {a m n e p : Nat} {X : Matrix (Fin m) (Fin n) (ZMod 2)[X]} {t : Nat} (ht : t < e) (i : Fin m) (j : Fin n) :
      s a = some ⟨m, n, e, p, X⟩ → PolyAllowed s (.readBit a t i j) (.bit (decide ((X i j).coeff t = 1))) s
  | randomize {d m n e p : Nat} {X : Matrix (Fin m) (Fin n) (ZMod 2)[X]} (r : Nat → Nat → Nat → Bool) : s d = some ⟨m, n, e, p, X⟩ →
      PolyAllowed s (.randomize d r) .unit (s.set d (some ⟨m, n, e, p, fun i j => polyOf e fun t => if r t i j then 1 else 0⟩))
  /-- coefficients `offset, …, offset + depth(a) - 1` are replaced by those of `a + b`; with an offset, the target may be the operand `b` only if `a` has at
  most 32 coefficients -/
  | addOffset {d a b m n e p ea pa eb pb off : Nat} {Z X Y : Matrix (Fin m) (Fin n) (ZMod 2)[X]} : s d = some ⟨m, n, e, p, Z⟩ →
      s a = some ⟨m, n, ea, pa, X⟩ → s b = some ⟨m, n, eb, pb, Y⟩ → off + ea ≤ e → ea ≤ eb → (off = 0 ∨ d ≠ b ∨ ea ≤ 32) →
      PolyAllowed s (.addOffset d a b off) .unit (s.set d (some ⟨m, n, e, p, fun i j => polyOf e fun t =>
        if off ≤ t ∧ t < off + ea then (X i j + Y i j).coeff (t - off) else (Z i j).coeff t⟩))
  | add {d a b m n e p ea pa pb : Nat} {Z X Y : Matrix (Fin m) (Fin n) (ZMod 2)[X]} : s d = some ⟨m, n, e, p, Z⟩ →
      s a = some ⟨m, n, ea, pa, X⟩ → s b = some ⟨m, n, ea, pb, Y⟩ → ea ≤ e →
      PolyAllowed s (.add d a b) .unit (s.set d (some ⟨m, n, e, p, fun i j => polyOf e fun t =>
        if t < ea then (X i j + Y i j).coeff t else (Z i j).coeff t⟩))
  | adaptDepth {d m n e p e' : Nat} {X : Matrix (Fin m) (Fin n) (ZMod 2)[X]} : s d = some ⟨m, n, e, p, X⟩ → e' ≤ p →
      PolyAllowed s (.adaptDepth d e') .unit (s.set d (some ⟨m, n, e', p, fun i j => polyOf e' fun t => (X i j).coeff t⟩))
  | addmul {d a b m k n e p ea pa eb pb : Nat} {Z : Matrix (Fin m) (Fin n) (ZMod 2)[X]} {X : Matrix (Fin m) (Fin k) (ZMod 2)[X]}
      {Y : Matrix (Fin k) (Fin n) (ZMod 2)[X]} (alg : PolyAlg) : s d = some ⟨m, n, e, p, Z⟩ → s a = some ⟨m, k, ea, pa, X⟩ → s b = some ⟨k, n, eb, pb, Y⟩ →
      d ≠ a → d ≠ b → ea + eb - 1 ≤ e → alg.Domain ea eb →
      PolyAllowed s (.addmul alg d a b) .unit (s.set d (some ⟨m, n, e, p, Z + X * Y⟩))
  | mul {d a b m k n ea pa eb pb : Nat} {X : Matrix (Fin m) (Fin k) (ZMod 2)[X]} {Y : Matrix (Fin k) (Fin n) (ZMod 2)[X]} (alg : PolyAlg) : s d = none →
      s a = some ⟨m, k, ea, pa, X⟩ → s b = some ⟨k, n, eb, pb, Y⟩ → 1 ≤ ea + eb → alg.Domain ea eb → alg ≠ .ext1 →
      PolyAllowed s (.mul alg d a b) .unit (s.set d (some ⟨m, n, ea + eb, ea + eb, X * Y⟩))
  | equal {a b m n ea pa eb pb : Nat} {X Y : Matrix (Fin m) (Fin n) (ZMod 2)[X]} : s a = some ⟨m, n, ea, pa, X⟩ → s b = some ⟨m, n, eb, pb, Y⟩ →
      PolyAllowed s (.equal a b) (.bit (decide (ea = eb ∧ X = Y))) s

/-- every call of the program may be made when its turn comes -/
def PolySafe : APolyState → List PolyOp → Prop
  | _, [] => True
  | s, op :: ops => (∃ out s', PolyAllowed s op out s') ∧ ∀ out s', PolyAllowed s op out s' → PolySafe s' ops

/-- the program can return `outs` and leave `s'` behind -/
inductive PolyRuns : APolyState → List PolyOp → List PolyOut → APolyState → Prop
  | nil (s) : PolyRuns s [] [] s
  | cons {s s' s'' op ops out outs} : PolyAllowed s op out s' → PolyRuns s' ops outs s'' → PolyRuns s (op :: ops) (out :: outs) s''

end M4rie.Spec
