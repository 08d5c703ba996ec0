import Verif.Spec.History
import Verif.Spec.Ple
import Mathlib.Data.List.FinRange

/-!
# Specification: programs with permutations, decompositions and a choice of algorithms

Extends `Verif.Spec.History`: besides matrices there are variables holding permutations, and for many operations the caller may name the algorithm.
-/

namespace M4rie.Spec

/-- a permutation object: entry `i` says with which index `i` is swapped, for `i = 0, 1, ..` -/
structure APerm where
  n : Nat
  arr : Fin n → Fin n

/-- the permutation: swap `0` with `arr 0`, then `1` with `arr 1`, ..; row `i` of the permuted matrix is row `toPerm i` of the original -/
def APerm.toPerm (p : APerm) : Equiv.Perm (Fin p.n) := ((List.finRange p.n).map fun i => Equiv.swap i (p.arr i)).prod

/-- entry `i` as a number -/
def APerm.at (p : APerm) (i : Nat) : Nat := if h : i < p.n then (p.arr ⟨i, h⟩).1 else i

structure PState (K : Type) where
  mat : AState K
  perm : Nat → Option APerm

def PState.setMat {K : Type} (s : PState K) (d : Nat) (X : Option (AMat K)) : PState K := { s with mat := s.mat.set d X }
def PState.setPerm {K : Type} (s : PState K) (p : Nat) (x : Option APerm) : PState K := { s with perm := fun k => if k = p then x else s.perm k }

/-- the algorithms a caller may ask for by name -/
inductive Alg where
  | naive
  | newtonJohn
  | strassen (cutoff : Int)
  | karatsuba
  | blm
  | ple

/-- the calls -/
inductive POp (K : Type) where
  /-- the calls of `Verif.Spec.History` -/
  | base (op : Op K)
  /-- the same effect, by the algorithm `alg` -/
  | named (alg : Alg) (op : Op K)
  /-- a new identity permutation -/
  | permInit (p n : Nat)
  | permFree (p : Nat)
  /-- permute the rows of `d` -/
  | applyLeft (d p : Nat)
  | applyLeftTrans (d p : Nat)
  /-- permute the columns of `d` -/
  | applyRight (d p : Nat)
  | applyRightTrans (d p : Nat)
  | decompose (d p q : Nat)
  /-- packed only: the same by the algorithm `alg` -/
  | decomposeBy (alg : Alg) (d p q : Nat)
  /-- sliced only -/
  | pluq (d p q : Nat)
  /-- packed only: add row `i` to row `j` -/
  | rowAdd (d i j : Nat)
  /-- packed only: copy row `j` of `a` to row `i` of `d` -/
  | copyRow (d i a j : Nat)
  /-- packed only -/
  | firstZeroRow (a : Nat)
  /-- sliced only: add the multiple `x` of `a` to `d` -/
  | addmulScalar (d : Nat) (x : K) (a : Nat)

/-- which algorithms there are for which operation; `w` is the number of bits of an element -/
def Offered {K : Type} (w : Nat) : (sliced : Bool) → Alg → Op K → Prop
  | false, .naive, .mul .. | false, .naive, .addmul .. => True
  | false, .newtonJohn, .mul .. | false, .newtonJohn, .addmul .. => True
  | false, .strassen c, .mul .. | false, .strassen c, .addmul .. => 128 / (w : Int) ≤ c + 1
  | false, .karatsuba, .mul .. | false, .karatsuba, .addmul .. => True
  | false, .blm, .mul .. | false, .blm, .addmul .. => True
  | true, .blm, .mul .. | true, .blm, .addmul .. => True
  | true, .naive, .addmul .. => True
  | false, .naive, .echelonize .. | false, .newtonJohn, .echelonize .. | false, .ple, .echelonize .. => True
  | _, .naive, .trsmLower .. | _, .newtonJohn, .trsmLower .. | _, .naive, .trsmUpper .. | _, .newtonJohn, .trsmUpper .. => True
  | _, _, _ => False

/-- the variable an operation is about, to see its representation -/
def subject {K : Type} : Op K → Nat
  | .mul d _ _ | .addmul d _ _ | .echelonize d _ | .trsmLower _ d | .trsmUpper _ d => d
  | _ => 0

inductive PAllowed {K : Type} [Field K] [DecidableEq K] (bad : Nat → Nat → Prop) (w : Nat) (s : PState K) : POp K → Out K → PState K → Prop
  | base {op : Op K} {out : Out K} {m : AState K} : Allowed bad s.mat op out m → PAllowed bad w s (.base op) out { s with mat := m }
  | named {alg : Alg} {op : Op K} {out : Out K} {m : AState K} {X : AMat K} : s.mat (subject op) = some X → Offered w X.sliced alg op →
      Allowed bad s.mat op out m → PAllowed bad w s (.named alg op) out { s with mat := m }
  | permInit (p n : Nat) : s.perm p = none → PAllowed bad w s (.permInit p n) .unit (s.setPerm p (some ⟨n, id⟩))
  | permFree (p : Nat) {x : APerm} : s.perm p = some x → PAllowed bad w s (.permFree p) .unit (s.setPerm p none)
  | applyLeft {d p n : Nat} {t : Bool} {x : APerm} {X : Matrix (Fin x.n) (Fin n) K} : s.perm p = some x → s.mat d = some ⟨t, x.n, n, X⟩ →
      PAllowed bad w s (.applyLeft d p) .unit (s.setMat d (some ⟨t, x.n, n, X.submatrix x.toPerm id⟩))
  | applyLeftTrans {d p n : Nat} {t : Bool} {x : APerm} {X : Matrix (Fin x.n) (Fin n) K} : s.perm p = some x → s.mat d = some ⟨t, x.n, n, X⟩ →
      PAllowed bad w s (.applyLeftTrans d p) .unit (s.setMat d (some ⟨t, x.n, n, X.submatrix x.toPerm.symm id⟩))
  | applyRight {d p m : Nat} {t : Bool} {x : APerm} {X : Matrix (Fin m) (Fin x.n) K} : s.perm p = some x → s.mat d = some ⟨t, m, x.n, X⟩ →
      PAllowed bad w s (.applyRight d p) .unit (s.setMat d (some ⟨t, m, x.n, X.submatrix id x.toPerm.symm⟩))
  | applyRightTrans {d p m : Nat} {t : Bool} {x : APerm} {X : Matrix (Fin m) (Fin x.n) K} : s.perm p = some x → s.mat d = some ⟨t, m, x.n, X⟩ →
      PAllowed bad w s (.applyRightTrans d p) .unit (s.setMat d (some ⟨t, m, x.n, X.submatrix id x.toPerm⟩))
  /-- the returned number is the rank; `P`, `Q` and the matrix are overwritten by a decomposition -/
  | decompose {d p q : Nat} {t : Bool} {x x' y y' : APerm} {X F : Matrix (Fin x.n) (Fin y.n) K} : p ≠ q → s.perm p = some x → s.perm q = some y →
      s.mat d = some ⟨t, x.n, y.n, X⟩ → x'.n = x.n → y'.n = y.n → IsPLE x.n y.n X.rank (ofFin X) (ofFin F) x'.at y'.at →
      PAllowed bad w s (.decompose d p q) (.num X.rank) (((s.setMat d (some ⟨t, x.n, y.n, F⟩)).setPerm p (some x')).setPerm q (some y'))
  | decomposeBy {alg : Alg} {d p q : Nat} {x x' y y' : APerm} {X F : Matrix (Fin x.n) (Fin y.n) K} : alg = .naive ∨ alg = .newtonJohn →
      p ≠ q → s.perm p = some x → s.perm q = some y →
      s.mat d = some ⟨false, x.n, y.n, X⟩ → x'.n = x.n → y'.n = y.n → IsPLE x.n y.n X.rank (ofFin X) (ofFin F) x'.at y'.at →
      PAllowed bad w s (.decomposeBy alg d p q) (.num X.rank) (((s.setMat d (some ⟨false, x.n, y.n, F⟩)).setPerm p (some x')).setPerm q (some y'))
  | pluq {d p q : Nat} {x x' y y' : APerm} {X F : Matrix (Fin x.n) (Fin y.n) K} : p ≠ q → s.perm p = some x → s.perm q = some y →
      s.mat d = some ⟨true, x.n, y.n, X⟩ → x'.n = x.n → y'.n = y.n → IsPLUQ x.n y.n X.rank (ofFin X) (ofFin F) x'.at y'.at →
      PAllowed bad w s (.pluq d p q) (.num X.rank) (((s.setMat d (some ⟨true, x.n, y.n, F⟩)).setPerm p (some x')).setPerm q (some y'))
  | rowAdd {d m n : Nat} {X : Matrix (Fin m) (Fin n) K} (i j : Fin m) : s.mat d = some ⟨false, m, n, X⟩ →
      PAllowed bad w s (.rowAdd d i j) .unit (s.setMat d (some ⟨false, m, n, fun a b => if a = j then X j b + X i b else X a b⟩))
  | copyRow {d a m m' n : Nat} {X : Matrix (Fin m) (Fin n) K} {Y : Matrix (Fin m') (Fin n) K} (i : Fin m) (j : Fin m') :
      s.mat d = some ⟨false, m, n, X⟩ → s.mat a = some ⟨false, m', n, Y⟩ →
      PAllowed bad w s (.copyRow d i a j) .unit (s.setMat d (some ⟨false, m, n, fun p q => if p = i then Y j q else X p q⟩))
  /-- the number of the row behind the last non-zero row -/
  | firstZeroRow {a m n k : Nat} {X : Matrix (Fin m) (Fin n) K} : s.mat a = some ⟨false, m, n, X⟩ → k ≤ m → (∀ i : Fin m, k ≤ i.1 → X i = 0) →
      (∀ i : Fin m, i.1 + 1 = k → X i ≠ 0) → PAllowed bad w s (.firstZeroRow a) (.num k) s
  | addmulScalar {d a m n : Nat} {X Z : Matrix (Fin m) (Fin n) K} (x : K) : s.mat d = some ⟨true, m, n, Z⟩ → s.mat a = some ⟨true, m, n, X⟩ →
      d ≠ a → PAllowed bad w s (.addmulScalar d x a) .unit (s.setMat d (some ⟨true, m, n, Z + x • X⟩))

/-- every call of the program may be made when its turn comes, whatever the calls before it returned -/
def PSafe {K : Type} [Field K] [DecidableEq K] (bad : Nat → Nat → Prop) (w : Nat) : PState K → List (POp K) → Prop
  | _, [] => True
  | s, op :: ops => (∃ out s', PAllowed bad w s op out s') ∧ ∀ out s', PAllowed bad w s op out s' → PSafe bad w s' ops

/-- the program can return `outs` and leave `s'` behind -/
inductive PRuns {K : Type} [Field K] [DecidableEq K] (bad : Nat → Nat → Prop) (w : Nat) : PState K → List (POp K) → List (Out K) → PState K → Prop
  | nil (s) : PRuns bad w s [] [] s
  | cons {s s' s'' op ops out outs} : PAllowed bad w s op out s' → PRuns bad w s' ops outs s'' → PRuns bad w s (op :: ops) (out :: outs) s''

end M4rie.Spec
