import Verif.Props.Field
import Verif.Proofs.MzedMat

/-!
# Field objects and the matrix stored in a packed matrix

* `IsField ff`: `ff` is an object returned by `gf2e_init` for an irreducible polynomial of degree
  2..16.  `Elem ff` (the `e`-bit words with XOR, `gf2e_mul`, `gf2e_inv`) is then a Mathlib `Field`.
* `Rep A M`: the packed matrix `A` over `ff` stores the field element `M i j` at row `i`,
  position `j`, *for all* `i j` - so `M` also describes padding bits and, for a window, the
  surrounding parts of the parent matrix.
-/

namespace M4rie
open M4rie.Spec M4rie.Props

/-- `ff` was returned by `gf2e_init` for an irreducible polynomial of degree `2 ≤ e ≤ 16`. -/
class IsField (ff : Gf2e) : Prop where
  out : ∃ f : Word, 2 ≤ (toPoly f).natDegree ∧ (toPoly f).natDegree ≤ 16 ∧ Irreducible (toPoly f) ∧
    gf2eInit f = some ff

section
variable {ff : Gf2e} [h : IsField ff]

theorem IsField.minpoly_eq : Irreducible (toPoly ff.minpoly) ∧ FFOK ff ∧ 2 ≤ ff.degree := by
  obtain ⟨f, h1, h2, h3, h4⟩ := h.out
  obtain ⟨a, b, c⟩ := ffok_of_init (f := f) ⟨by omega, h2⟩ h4
  rw [b]
  exact ⟨h3, a, by omega⟩

instance : Fact (FFOK ff) := ⟨IsField.minpoly_eq.2.1⟩
instance : Fact (Irreducible (toPoly ff.minpoly)) := ⟨IsField.minpoly_eq.1⟩
theorem IsField.two_le : 2 ≤ ff.degree := (IsField.minpoly_eq (ff := ff)).2.2
end

/-- `A` is a matrix over `ff` in packed storage whose contents are `M`. -/
structure Rep {ff : Gf2e} (A : Mzed) (M : Nat → Nat → Elem ff) : Prop where
  ffEq : A.ff = ff
  wEq : A.w = degreeToW ff.degree
  entry : ∀ i j, entryOf A.w A.words i j = (M i j).1

section
variable {ff : Gf2e} [IsField ff] {A : Mzed} {M : Nat → Nat → Elem ff}

theorem Rep.wf (h : Rep A M) : A.WF :=
  ⟨by rw [h.ffEq]; exact Fact.out, by rw [h.ffEq]; exact IsField.two_le, by rw [h.ffEq]; exact h.wEq⟩

omit [IsField ff] in
theorem Rep.canon (h : Rep A M) : A.Canon := by
  intro i j
  unfold Mzed.entry
  rw [h.entry, h.ffEq]; exact (M i j).2

/-- every well-formed matrix with reduced entries represents a (unique) matrix -/
theorem rep_exists (A : Mzed) (hf : A.ff = ff) (hw : A.w = degreeToW ff.degree)
    (hc : ∀ i j, (entryOf A.w A.words i j).toNat < 2 ^ ff.degree) : ∃ M : Nat → Nat → Elem ff, Rep A M :=
  ⟨fun i j => ⟨entryOf A.w A.words i j, hc i j⟩, hf, hw, fun _ _ => rfl⟩

omit [IsField ff] in
theorem Rep.unique {M' : Nat → Nat → Elem ff} (h : Rep A M) (h' : Rep A M') : M = M' := by
  funext i j
  apply Elem.ext'
  rw [← h.entry, ← h'.entry]

end
end M4rie
