import Verif.Proofs.BlmCert

/-! Checking the certificates for the small multiplication maps. -/

namespace M4rie

/-- the targets of `a_a * b_b` -/
def recMask (a b : Nat) : List Nat → List Nat → Nat
  | n :: N, r :: R => (if n.testBit a && n.testBit b then r else 0) ^^^ recMask a b N R
  | _, _ => 0

/-- every product `a_a * b_b` is counted exactly in the coefficient of `x^(a+b)` -/
def recCheck (d : Nat) (N R : List Nat) : Bool :=
  N.length == R.length && N.all (· < 2 ^ d) && (List.range d).all fun a => (List.range d).all fun b => recMask a b N R == 1 <<< (a + b)

/-- the mask of the rows `k` in which column `a` is set -/
def colMask (a : Nat) (N : List Nat) : Nat := N.foldr (fun n m => 2 * m + (if n.testBit a then 1 else 0)) 0

/-- the pairs `(v,w)`, `v ≤ w < d` -/
def pairList (d : Nat) : List (Nat × Nat) := (List.range d).flatMap fun v => ((List.range d).filter (v ≤ ·)).map (v, ·)

/-- the combination of the rows in `L` selected by the bits of `s` -/
def selXor : List Nat → Nat → Nat
  | [], _ => 0
  | x :: L, s => (if s.testBit 0 then x else 0) ^^^ selXor L (s / 2)

/-- every unit vector is a combination of the products of columns -/
def spanCheck (d : Nat) (N S : List Nat) : Bool :=
  S.length == N.length && (List.range N.length).all fun k =>
    selXor ((pairList d).map fun p => colMask p.1 N &&& colMask p.2 N) (S.getD k 0) == 1 <<< k

theorem recCheck_small : ∀ d N, smallMap? d = some N → recCheck d N (smallRec d) = true := by
  intro d N h
  match d, h with
  | 1, rfl => decide +kernel
  | 2, rfl => decide +kernel
  | 3, rfl => decide +kernel
  | 4, rfl => decide +kernel
  | 5, rfl => decide +kernel
  | 6, rfl => decide +kernel
  | 7, rfl => decide +kernel
  | 8, rfl => decide +kernel
  | 9, rfl => decide +kernel
  | 10, rfl => decide +kernel
  | 11, rfl => decide +kernel
  | 12, rfl => decide +kernel
  | 13, rfl => decide +kernel
  | 14, rfl => decide +kernel
  | 15, rfl => decide +kernel
  | 16, rfl => decide +kernel

theorem spanCheck_small : ∀ d N, smallMap? d = some N → spanCheck d N (smallSpan d) = true := by
  intro d N h
  match d, h with
  | 1, rfl => decide +kernel
  | 2, rfl => decide +kernel
  | 3, rfl => decide +kernel
  | 4, rfl => decide +kernel
  | 5, rfl => decide +kernel
  | 6, rfl => decide +kernel
  | 7, rfl => decide +kernel
  | 8, rfl => decide +kernel
  | 9, rfl => decide +kernel
  | 10, rfl => decide +kernel
  | 11, rfl => decide +kernel
  | 12, rfl => decide +kernel
  | 13, rfl => decide +kernel
  | 14, rfl => decide +kernel
  | 15, rfl => decide +kernel
  | 16, rfl => decide +kernel

theorem smallMap_length : ∀ d, 1 ≤ d → d ≤ 16 → ∃ N, smallMap? d = some N ∧ N.length = crtCosts.getD d 0 := by
  intro d h1 h2
  have : d = 1 ∨ d = 2 ∨ d = 3 ∨ d = 4 ∨ d = 5 ∨ d = 6 ∨ d = 7 ∨ d = 8 ∨ d = 9 ∨ d = 10 ∨ d = 11 ∨ d = 12 ∨ d = 13 ∨ d = 14 ∨ d = 15 ∨ d = 16 := by
    omega
  rcases this with h | h | h | h | h | h | h | h | h | h | h | h | h | h | h | h <;> subst h <;> exact ⟨_, rfl, rfl⟩

end M4rie
