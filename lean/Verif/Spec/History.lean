import Mathlib.LinearAlgebra.Matrix.Rank
import Mathlib.LinearAlgebra.Matrix.NonsingularInverse
import Mathlib.Data.Fin.Tuple.Basic
import Verif.Spec.LinAlg

/-!
# Specification: what a sequence of calls does

A program works on numbered matrix variables.  `Op K` are the calls, `Allowed s op out s'` says - in terms of Mathlib matrices over the field
`K`, without any representation in memory - when the call `op` may be made in the state `s`, what it returns and what it leaves behind.
-/

namespace M4rie.Spec

/-- the calls; `d` is the matrix written to, `a`, `b`, `s` are operands.  Both representations (packed `mzed_t`, sliced `mzd_slice_t`) have these
functions, except where noted. -/
inductive Op (K : Type) where
  /-- a new zero matrix -/
  | init (sliced : Bool) (d m n : Nat)
  /-- release a matrix -/
  | free (d : Nat)
  | readElem (s i j : Nat)
  | writeElem (d i j : Nat) (x : K)
  | addElem (d i j : Nat) (x : K)
  | setUi (d : Nat) (x : K)
  | rowSwap (d i j : Nat)
  | colSwap (d i j : Nat)
  /-- packed only -/
  | rescaleRow (d i c : Nat) (x : K)
  /-- packed only -/
  | addMultipleOfRow (d i s j : Nat) (x : K) (c : Nat)
  | copy (d s : Nat)
  /-- a new matrix in the other representation -/
  | convert (d s : Nat)
  | add (d a b : Nat)
  | mulScalar (d : Nat) (x : K) (s : Nat)
  | mul (d a b : Nat)
  | addmul (d a b : Nat)
  /-- a new matrix -/
  | concat (d a b : Nat)
  /-- a new matrix -/
  | stack (d a b : Nat)
  /-- a new matrix -/
  | submatrix (d s lr lc hr hc : Nat)
  | echelonize (d : Nat) (full : Bool)
  /-- packed only; a new matrix -/
  | invert (d s : Nat)
  | trsmLower (a d : Nat)
  | trsmUpper (a d : Nat)
  | isZero (s : Nat)
  | equal (a b : Nat)

/-- what a call returns -/
inductive Out (K : Type) where
  | unit
  | elem (x : K)
  | num (n : Nat)
  | bool (b : Bool)

/-- an abstract matrix, with the representation it is kept in -/
structure AMat (K : Type) where
  sliced : Bool
  m : Nat
  n : Nat
  val : Matrix (Fin m) (Fin n) K

/-- the abstract contents of the variables -/
abbrev AState (K : Type) := Nat → Option (AMat K)

def AState.set {K : Type} (s : AState K) (d : Nat) (X : Option (AMat K)) : AState K := fun k => if k = d then X else s k

/-- a matrix as a function on all pairs of numbers -/
def ofFin {K : Type} [Zero K] {m n : Nat} (X : Matrix (Fin m) (Fin n) K) (i j : Nat) : K :=
  if h : i < m ∧ j < n then X ⟨i, h.1⟩ ⟨j, h.2⟩ else 0

/-- `A` and `B` side by side -/
def hcat {K : Type} {m p q : Nat} (A : Matrix (Fin m) (Fin p) K) (B : Matrix (Fin m) (Fin q) K) : Matrix (Fin m) (Fin (p + q)) K :=
  fun i => Fin.append (A i) (B i)

/-- `A` on top of `B` -/
def vcat {K : Type} {p q n : Nat} (A : Matrix (Fin p) (Fin n) K) (B : Matrix (Fin q) (Fin n) K) : Matrix (Fin (p + q)) (Fin n) K :=
  fun i j => Fin.append (fun i => A i j) (fun i => B i j) i

/-- the lower triangle, diagonal included -/
def lower {K : Type} [Zero K] {n : Nat} (A : Matrix (Fin n) (Fin n) K) : Matrix (Fin n) (Fin n) K := fun i j => if j ≤ i then A i j else 0

/-- the upper triangle, diagonal included -/
def upper {K : Type} [Zero K] {n : Nat} (A : Matrix (Fin n) (Fin n) K) : Matrix (Fin n) (Fin n) K := fun i j => if i ≤ j then A i j else 0

/-- `badScalar m n`: the sizes for which `mzed_mul_scalar` is broken in the field at hand (see C18); a parameter here. -/
inductive Allowed {K : Type} [Field K] [DecidableEq K] (badScalar : Nat → Nat → Prop) (s : AState K) : Op K → Out K → AState K → Prop
  | init (t : Bool) (d m n : Nat) : s d = none → Allowed badScalar s (.init t d m n) .unit (s.set d (some ⟨t, m, n, 0⟩))
  | free (d : Nat) {X : AMat K} : s d = some X → Allowed badScalar s (.free d) .unit (s.set d none)
  | readElem {a m n : Nat} {t : Bool} {X : Matrix (Fin m) (Fin n) K} (i : Fin m) (j : Fin n) : s a = some ⟨t, m, n, X⟩ →
      Allowed badScalar s (.readElem a i j) (.elem (X i j)) s
  | writeElem {d m n : Nat} {t : Bool} {X : Matrix (Fin m) (Fin n) K} (i : Fin m) (j : Fin n) (x : K) : s d = some ⟨t, m, n, X⟩ →
      Allowed badScalar s (.writeElem d i j x) .unit (s.set d (some ⟨t, m, n, fun a b => if a = i ∧ b = j then x else X a b⟩))
  | addElem {d m n : Nat} {t : Bool} {X : Matrix (Fin m) (Fin n) K} (i : Fin m) (j : Fin n) (x : K) : s d = some ⟨t, m, n, X⟩ →
      Allowed badScalar s (.addElem d i j x) .unit (s.set d (some ⟨t, m, n, fun a b => if a = i ∧ b = j then X a b + x else X a b⟩))
  | setUi {d m n : Nat} {t : Bool} {X : Matrix (Fin m) (Fin n) K} (x : K) : s d = some ⟨t, m, n, X⟩ →
      Allowed badScalar s (.setUi d x) .unit (s.set d (some ⟨t, m, n, fun a b => if a.1 = b.1 then x else 0⟩))
  | rowSwap {d m n : Nat} {t : Bool} {X : Matrix (Fin m) (Fin n) K} (i j : Fin m) : s d = some ⟨t, m, n, X⟩ →
      Allowed badScalar s (.rowSwap d i j) .unit (s.set d (some ⟨t, m, n, X.submatrix (Equiv.swap i j) id⟩))
  | colSwap {d m n : Nat} {t : Bool} {X : Matrix (Fin m) (Fin n) K} (i j : Fin n) : s d = some ⟨t, m, n, X⟩ →
      Allowed badScalar s (.colSwap d i j) .unit (s.set d (some ⟨t, m, n, X.submatrix id (Equiv.swap i j)⟩))
  | rescaleRow {d m n : Nat} {X : Matrix (Fin m) (Fin n) K} (i : Fin m) (c : Fin n) (x : K) : s d = some ⟨false, m, n, X⟩ →
      Allowed badScalar s (.rescaleRow d i c x) .unit (s.set d (some ⟨false, m, n, fun a b => if a = i ∧ c ≤ b then x * X a b else X a b⟩))
  | addMultipleOfRow {d a m m' n : Nat} {X : Matrix (Fin m) (Fin n) K} {Y : Matrix (Fin m') (Fin n) K} (i : Fin m) (j : Fin m') (x : K) (c : Fin n) :
      s d = some ⟨false, m, n, X⟩ → s a = some ⟨false, m', n, Y⟩ → (d = a → i.1 ≠ j.1) →
      Allowed badScalar s (.addMultipleOfRow d i a j x c) .unit
        (s.set d (some ⟨false, m, n, fun p q => if p = i ∧ c ≤ q then X p q + x * Y j q else X p q⟩))
  | copy {d a m n : Nat} {t : Bool} {X Y : Matrix (Fin m) (Fin n) K} : s d = some ⟨t, m, n, X⟩ → s a = some ⟨t, m, n, Y⟩ →
      Allowed badScalar s (.copy d a) .unit (s.set d (some ⟨t, m, n, Y⟩))
  | convert {d a m n : Nat} {t : Bool} {X : Matrix (Fin m) (Fin n) K} : s d = none → s a = some ⟨t, m, n, X⟩ →
      Allowed badScalar s (.convert d a) .unit (s.set d (some ⟨!t, m, n, X⟩))
  | add {d a b m n : Nat} {t : Bool} {X Y Z : Matrix (Fin m) (Fin n) K} : s d = some ⟨t, m, n, Z⟩ → s a = some ⟨t, m, n, X⟩ →
      s b = some ⟨t, m, n, Y⟩ → Allowed badScalar s (.add d a b) .unit (s.set d (some ⟨t, m, n, X + Y⟩))
  | mulScalarPacked {d a m n : Nat} {X Z : Matrix (Fin m) (Fin n) K} (x : K) : s d = some ⟨false, m, n, Z⟩ → s a = some ⟨false, m, n, X⟩ →
      0 < n → ¬ badScalar m n → Allowed badScalar s (.mulScalar d x a) .unit (s.set d (some ⟨false, m, n, x • X⟩))
  | mulScalarSliced {d a m n : Nat} {X Z : Matrix (Fin m) (Fin n) K} (x : K) : s d = some ⟨true, m, n, Z⟩ → s a = some ⟨true, m, n, X⟩ →
      d ≠ a → Allowed badScalar s (.mulScalar d x a) .unit (s.set d (some ⟨true, m, n, x • X⟩))
  | mul {d a b m k n : Nat} {t : Bool} {X : Matrix (Fin m) (Fin k) K} {Y : Matrix (Fin k) (Fin n) K} {Z : Matrix (Fin m) (Fin n) K} :
      s d = some ⟨t, m, n, Z⟩ → s a = some ⟨t, m, k, X⟩ → s b = some ⟨t, k, n, Y⟩ → d ≠ a → d ≠ b → 0 < n →
      Allowed badScalar s (.mul d a b) .unit (s.set d (some ⟨t, m, n, X * Y⟩))
  | addmul {d a b m k n : Nat} {t : Bool} {X : Matrix (Fin m) (Fin k) K} {Y : Matrix (Fin k) (Fin n) K} {Z : Matrix (Fin m) (Fin n) K} :
      s d = some ⟨t, m, n, Z⟩ → s a = some ⟨t, m, k, X⟩ → s b = some ⟨t, k, n, Y⟩ → d ≠ a → d ≠ b → 0 < n →
      Allowed badScalar s (.addmul d a b) .unit (s.set d (some ⟨t, m, n, Z + X * Y⟩))
  | concat {d a b m p q : Nat} {t : Bool} {X : Matrix (Fin m) (Fin p) K} {Y : Matrix (Fin m) (Fin q) K} :
      s d = none → s a = some ⟨t, m, p, X⟩ → s b = some ⟨t, m, q, Y⟩ →
      Allowed badScalar s (.concat d a b) .unit (s.set d (some ⟨t, m, p + q, hcat X Y⟩))
  | stack {d a b p q n : Nat} {t : Bool} {X : Matrix (Fin p) (Fin n) K} {Y : Matrix (Fin q) (Fin n) K} :
      s d = none → s a = some ⟨t, p, n, X⟩ → s b = some ⟨t, q, n, Y⟩ →
      Allowed badScalar s (.stack d a b) .unit (s.set d (some ⟨t, p + q, n, vcat X Y⟩))
  | submatrix {d a m n lr lc p q : Nat} {t : Bool} {X : Matrix (Fin m) (Fin n) K} (hr : lr + p ≤ m) (hc : lc + q ≤ n) :
      s d = none → s a = some ⟨t, m, n, X⟩ → Allowed badScalar s (.submatrix d a lr lc (lr + p) (lc + q)) .unit
        (s.set d (some ⟨t, p, q, fun i j => X ⟨lr + i, by omega⟩ ⟨lc + j, by omega⟩⟩))
  /-- the returned number is the rank; the new matrix is in echelon form, reduced if asked for, and has the same row space -/
  | echelonize {d m n : Nat} {t : Bool} {X Y : Matrix (Fin m) (Fin n) K} (full : Bool) (piv : Nat → Nat) : s d = some ⟨t, m, n, X⟩ →
      IsEchelon m n X.rank (ofFin Y) piv → (full = true → IsRref m n X.rank (ofFin Y) piv) →
      Submodule.span K (Set.range Y.row) = Submodule.span K (Set.range X.row) →
      Allowed badScalar s (.echelonize d full) (.num X.rank) (s.set d (some ⟨t, m, n, Y⟩))
  | invert {d a n : Nat} {X : Matrix (Fin n) (Fin n) K} : s d = none → s a = some ⟨false, n, n, X⟩ → IsUnit X.det →
      Allowed badScalar s (.invert d a) .unit (s.set d (some ⟨false, n, n, X⁻¹⟩))
  | trsmLower {a d m n : Nat} {t : Bool} {L : Matrix (Fin m) (Fin m) K} {B : Matrix (Fin m) (Fin n) K} : s d = some ⟨t, m, n, B⟩ →
      s a = some ⟨t, m, m, L⟩ → d ≠ a → 0 < n → (∀ i, L i i ≠ 0) →
      Allowed badScalar s (.trsmLower a d) .unit (s.set d (some ⟨t, m, n, (lower L)⁻¹ * B⟩))
  | trsmUpper {a d m n : Nat} {t : Bool} {U : Matrix (Fin m) (Fin m) K} {B : Matrix (Fin m) (Fin n) K} : s d = some ⟨t, m, n, B⟩ →
      s a = some ⟨t, m, m, U⟩ → d ≠ a → 0 < n → (∀ i, U i i ≠ 0) →
      Allowed badScalar s (.trsmUpper a d) .unit (s.set d (some ⟨t, m, n, (upper U)⁻¹ * B⟩))
  | isZero {a m n : Nat} {t : Bool} {X : Matrix (Fin m) (Fin n) K} : s a = some ⟨t, m, n, X⟩ →
      Allowed badScalar s (.isZero a) (.bool (decide (X = 0))) s
  | equal {a b m n : Nat} {t : Bool} {X Y : Matrix (Fin m) (Fin n) K} : s a = some ⟨t, m, n, X⟩ → s b = some ⟨t, m, n, Y⟩ →
      Allowed badScalar s (.equal a b) (.bool (decide (X = Y))) s

/-- the call may be made -/
def MayCall {K : Type} [Field K] [DecidableEq K] (bad : Nat → Nat → Prop) (s : AState K) (op : Op K) : Prop := ∃ out s', Allowed bad s op out s'

/-- every call of the program may be made when its turn comes, whatever the calls before it returned -/
def Safe {K : Type} [Field K] [DecidableEq K] (bad : Nat → Nat → Prop) : AState K → List (Op K) → Prop
  | _, [] => True
  | s, op :: ops => MayCall bad s op ∧ ∀ out s', Allowed bad s op out s' → Safe bad s' ops

/-- the program can return `outs` and leave `s'` behind -/
inductive Runs {K : Type} [Field K] [DecidableEq K] (bad : Nat → Nat → Prop) : AState K → List (Op K) → List (Out K) → AState K → Prop
  | nil (s) : Runs bad s [] [] s
  | cons {s s' s'' op ops out outs} : Allowed bad s op out s' → Runs bad s' ops outs s'' → Runs bad s (op :: ops) (out :: outs) s''

end M4rie.Spec
