import Verif.Proofs.Echelon

/-! Block elimination steps (several pivots at once). -/

namespace M4rie.Spec

variable {K : Type*} [Field K] {nr nc : Nat}

/-- rows outside a block get multiples of block rows added -/
theorem rowSpan_addBlock {M M' : Nat → Nat → K} {r t : Nat} (ht : r + t ≤ nr) (f : Nat → Nat → K)
    (h : ∀ i, i < nr → ∀ j, j < nc → M' i j = if r ≤ i ∧ i < r + t then M i j else M i j + ∑ q ∈ Finset.range t, f i q * M (r + q) j) :
    rowSpan nr nc M' = rowSpan nr nc M := by
  have hrow : ∀ i, i < nr → rowVec nc M' i = if r ≤ i ∧ i < r + t then rowVec nc M i
      else rowVec nc M i + ∑ q ∈ Finset.range t, f i q • rowVec nc M (r + q) := by
    intro i hi
    funext j
    have := h i hi j j.2
    unfold rowVec
    rw [this]
    split_ifs
    · rfl
    · simp [Finset.sum_apply]
  have hblock : ∀ q, q < t → rowVec nc M' (r + q) = rowVec nc M (r + q) := by
    intro q hq; rw [hrow _ (by omega), if_pos (by omega)]
  apply le_antisymm
  · apply rowSpan_le
    intro i hi
    rw [hrow i hi]
    split_ifs
    · exact rowVec_mem hi
    · exact Submodule.add_mem _ (rowVec_mem hi) (Submodule.sum_mem _ fun q hq => Submodule.smul_mem _ _ (rowVec_mem (by
        rw [Finset.mem_range] at hq; omega)))
  · apply rowSpan_le
    intro i hi
    by_cases hb : r ≤ i ∧ i < r + t
    · have := hrow i hi
      rw [if_pos hb] at this
      rw [← this]; exact rowVec_mem hi
    · have h1 := hrow i hi
      rw [if_neg hb] at h1
      have : rowVec nc M i = rowVec nc M' i - ∑ q ∈ Finset.range t, f i q • rowVec nc M (r + q) := by rw [h1]; simp
      rw [this]
      refine Submodule.sub_mem _ (rowVec_mem hi) (Submodule.sum_mem _ fun q hq => Submodule.smul_mem _ _ ?_)
      rw [Finset.mem_range] at hq
      rw [← hblock q hq]; exact rowVec_mem (by omega)

/-- Inside a block: `t` pivots in the columns `c … c+t-1` and the rows `r … r+t-1`, which form an
identity matrix there; the other rows are not cleared yet. -/
structure GInv (nr nc c r t : Nat) (full : Prop) (M0 M : Nat → Nat → K) (piv : Nat → Nat) : Prop where
  span : rowSpan nr nc M = rowSpan nr nc M0
  le : r + t ≤ nr
  lt : ∀ i, i < r → piv i < c
  mono : ∀ i k, i < k → k < r → piv i < piv k
  one : ∀ i, i < r → M i (piv i) = 1
  left : ∀ i, i < r → ∀ j, j < piv i → M i j = 0
  below : ∀ i, r ≤ i → i < nr → ∀ j, j < c → M i j = 0
  above : full → ∀ i, i < r → ∀ k, k < nr → k ≠ i → M k (piv i) = 0
  ident : ∀ a b, a < t → b < t → M (r + a) (c + b) = if a = b then 1 else 0
  frame : ∀ i j, nr ≤ i ∨ nc ≤ j → M i j = M0 i j

variable {c r t : Nat} {full : Prop} {M0 M : Nat → Nat → K} {piv : Nat → Nat}

theorem EchInv.toG (h : EchInv nr nc c r full M0 M piv) : GInv nr nc c r 0 full M0 M piv where
  span := h.span
  le := h.le
  lt := h.lt
  mono := h.mono
  one := h.one
  left := h.left
  below := h.below
  above := h.above
  ident := by intro a b h; omega
  frame := h.frame

theorem GInv.toEch (h : GInv nr nc c r 0 full M0 M piv) : EchInv nr nc c r full M0 M piv where
  span := h.span
  le := h.le
  lt := h.lt
  mono := h.mono
  one := h.one
  left := h.left
  below := h.below
  above := h.above
  frame := h.frame

/-- finishing a block -/
theorem GInv.finish [CharP K 2] (h : GInv nr nc c r t full M0 M piv) (hc : c + t ≤ nc) (elim : Nat → Prop) [DecidablePred elim]
    (hb : ∀ i, r + t ≤ i → i < nr → elim i ∨ ∀ q, q < t → M i (c + q) = 0) (ha : full → ∀ i, i < r → elim i) (M' : Nat → Nat → K)
    (hM' : ∀ i j, M' i j = if i < nr ∧ j < nc ∧ elim i ∧ ¬ (r ≤ i ∧ i < r + t) then
      M i j + ∑ q ∈ Finset.range t, M i (c + q) * M (r + q) j else M i j) :
    EchInv nr nc (c + t) (r + t) full M0 M' (fun i => if i < r then piv i else c + (i - r)) := by
  have hle := h.le
  have hsum0 : ∀ i j, j < c → ∑ q ∈ Finset.range t, M i (c + q) * M (r + q) j = 0 := by
    intro i j hj
    apply Finset.sum_eq_zero
    intro q hq
    rw [Finset.mem_range] at hq
    rw [h.below (r + q) (by omega) (by omega) j hj, mul_zero]
  have hleft : ∀ i j, j < c → M' i j = M i j := by
    intro i j hj
    rw [hM', hsum0 i j hj, add_zero, ite_self]
  have hblk : ∀ i j, r ≤ i → i < r + t → M' i j = M i j := by
    intro i j h1 h2; rw [hM', if_neg (by tauto)]
  have hsumI : ∀ i b, b < t → ∑ q ∈ Finset.range t, M i (c + q) * M (r + q) (c + b) = M i (c + b) := by
    intro i b hbt
    rw [Finset.sum_eq_single b]
    · rw [h.ident b b hbt hbt, if_pos rfl, mul_one]
    · intro q hq hqb
      rw [Finset.mem_range] at hq
      rw [h.ident q b hq hbt, if_neg hqb, mul_zero]
    · intro hn; simp [hbt] at hn
  have hclear : ∀ i b, i < nr → b < t → elim i → ¬ (r ≤ i ∧ i < r + t) → M' i (c + b) = 0 := by
    intro i b hi hbt he hni
    rw [hM', if_pos ⟨hi, by omega, he, hni⟩, hsumI i b hbt]
    exact CharTwo.add_self_eq_zero _
  refine ⟨?_, hle, ?_, ?_, ?_, ?_, ?_, ?_, ?_⟩
  · rw [← h.span]
    apply rowSpan_addBlock hle (fun i q => if elim i then M i (c + q) else 0)
    intro i hi j hj
    rw [hM']
    by_cases h1 : r ≤ i ∧ i < r + t
    · rw [if_neg (by tauto), if_pos h1]
    · rw [if_neg (c := r ≤ i ∧ i < r + t) h1]
      by_cases h2 : elim i
      · rw [if_pos ⟨hi, hj, h2, h1⟩]; simp [h2]
      · rw [if_neg (by tauto)]; simp [h2]
  · intro i hi
    split_ifs with h1
    · have := h.lt i h1; omega
    · omega
  · intro i k hik hk
    by_cases h1 : k < r
    · rw [if_pos (by omega), if_pos h1]; exact h.mono i k hik h1
    · rw [if_neg h1]
      split_ifs with h2
      · have := h.lt i h2; omega
      · omega
  · intro i hi
    by_cases h1 : i < r
    · rw [if_pos h1, hleft i _ (h.lt i h1), h.one i h1]
    · rw [if_neg h1, hblk i _ (by omega) hi]
      have := h.ident (i - r) (i - r) (by omega) (by omega)
      rw [if_pos rfl, Nat.add_sub_cancel' (by omega)] at this
      exact this
  · intro i hi j hj
    by_cases h1 : i < r
    · rw [if_pos h1] at hj
      rw [hleft i _ (by have := h.lt i h1; omega), h.left i h1 j hj]
    · rw [if_neg h1] at hj
      rw [hblk i _ (by omega) hi]
      by_cases h2 : j < c
      · exact h.below i (by omega) (by omega) j h2
      · have := h.ident (i - r) (j - c) (by omega) (by omega)
        rw [if_neg (by omega), Nat.add_sub_cancel' (by omega), Nat.add_sub_cancel' (by omega)] at this
        exact this
  · intro i hi1 hi2 j hj
    by_cases h2 : j < c
    · rw [hleft i j h2, h.below i (by omega) hi2 j h2]
    · have e : j = c + (j - c) := by omega
      rcases hb i hi1 hi2 with h3 | h3
      · rw [e]; exact hclear i (j - c) hi2 (by omega) h3 (by omega)
      · have hz : M i j = 0 := by rw [e]; exact h3 _ (by omega)
        rw [hM']
        split_ifs
        · rw [hz, zero_add]
          apply Finset.sum_eq_zero
          intro q hq
          rw [Finset.mem_range] at hq
          rw [h3 q hq, zero_mul]
        · exact hz
  · intro hf i hi k hk hki
    by_cases h1 : i < r
    · rw [if_pos h1, hleft k _ (h.lt i h1), h.above hf i h1 k hk hki]
    · rw [if_neg h1]
      by_cases h2 : r ≤ k ∧ k < r + t
      · rw [hblk k _ h2.1 h2.2]
        have := h.ident (k - r) (i - r) (by omega) (by omega)
        rw [if_neg (by omega), Nat.add_sub_cancel' h2.1] at this
        exact this
      · by_cases h3 : k < r
        · exact hclear k (i - r) hk (by omega) (ha hf k h3) h2
        · rcases hb k (by omega) hk with h4 | h4
          · exact hclear k (i - r) hk (by omega) h4 h2
          · have hz : M k (c + (i - r)) = 0 := h4 _ (by omega)
            rw [hM']
            split_ifs
            · rw [hz, zero_add]
              apply Finset.sum_eq_zero
              intro q hq
              rw [Finset.mem_range] at hq
              rw [h4 q hq, zero_mul]
            · exact hz
  · intro i j hij
    rw [hM', if_neg (by omega)]
    exact h.frame i j hij

/-- clearing one more row with the block -/
theorem GInv.clearRow [CharP K 2] (h : GInv nr nc c r t full M0 M piv) (hc : c + t ≤ nc) {p : Nat} (hp1 : r + t ≤ p) (hp2 : p < nr)
    (M' : Nat → Nat → K) (hM' : ∀ i j, M' i j = if i = p ∧ j < nc then
      M i j + ∑ q ∈ Finset.range t, M i (c + q) * M (r + q) j else M i j) :
    GInv nr nc c r t full M0 M' piv ∧ ∀ q, q < t → M' p (c + q) = 0 := by
  have hle := h.le
  have hsum0 : ∀ i j, j < c → ∑ q ∈ Finset.range t, M i (c + q) * M (r + q) j = 0 := by
    intro i j hj
    apply Finset.sum_eq_zero
    intro q hq
    rw [Finset.mem_range] at hq
    rw [h.below (r + q) (by omega) (by omega) j hj, mul_zero]
  have hleft : ∀ i j, j < c → M' i j = M i j := by
    intro i j hj
    rw [hM', hsum0 i j hj, add_zero, ite_self]
  refine ⟨⟨?_, hle, h.lt, h.mono, ?_, ?_, ?_, ?_, ?_, ?_⟩, ?_⟩
  · rw [← h.span]
    apply rowSpan_addBlock hle (fun i q => if i = p then M i (c + q) else 0)
    intro i hi j hj
    rw [hM']
    by_cases h1 : i = p
    · rw [if_pos ⟨h1, hj⟩, if_neg (by omega)]; simp [h1]
    · rw [if_neg (by tauto)]; simp [h1]
  · intro i hi; rw [hleft i _ (h.lt i hi), h.one i hi]
  · intro i hi j hj; rw [hleft i _ (by have := h.lt i hi; omega), h.left i hi j hj]
  · intro i h1 h2 j hj; rw [hleft i j hj, h.below i h1 h2 j hj]
  · intro hf i hi k hk hki; rw [hleft k _ (h.lt i hi), h.above hf i hi k hk hki]
  · intro a b ha hb; rw [hM', if_neg (by omega), h.ident a b ha hb]
  · intro i j hij; rw [hM', if_neg (by omega), h.frame i j hij]
  · intro b hb
    rw [hM', if_pos ⟨rfl, by omega⟩, Finset.sum_eq_single b]
    · rw [h.ident b b hb hb, if_pos rfl, mul_one]; exact CharTwo.add_self_eq_zero _
    · intro q hq hqb
      rw [Finset.mem_range] at hq
      rw [h.ident q b hq hb, if_neg hqb, mul_zero]
    · intro hn; simp [hb] at hn

/-- a new pivot in row `p`, column `c+t` -/
theorem GInv.pivot [CharP K 2] (h : GInv nr nc c r t full M0 M piv) (hc : c + t < nc) {p : Nat} (hp1 : r + t ≤ p) (hp2 : p < nr)
    (hz : ∀ q, q < t → M p (c + q) = 0) (hx : M p (c + t) ≠ 0)
    (M' : Nat → Nat → K) (hM' : ∀ i j, M' i j = if i < nr ∧ j < nc then
      (if i = r + t then (M p (c + t))⁻¹ * M p j
       else if r ≤ i ∧ i < r + t then M i j + M i (c + t) * ((M p (c + t))⁻¹ * M p j)
       else M (Equiv.swap p (r + t) i) j) else M i j) :
    GInv nr nc c r (t + 1) full M0 M' piv := by
  have hr : r + t < nr := by omega
  have hsw : ∀ i, i < r + t → Equiv.swap p (r + t) i = i := fun i hi => Equiv.swap_apply_of_ne_of_ne (by omega) (by omega)
  have hpz : ∀ j, j < c + t → M p j = 0 := by
    intro j hj
    by_cases h1 : j < c
    · exact h.below p (by omega) hp2 j h1
    · have := hz (j - c) (by omega)
      rwa [Nat.add_sub_cancel' (by omega)] at this
  have hleft : ∀ i j, i < r + t → j < c + t → M' i j = M i j := by
    intro i j hi hj
    rw [hM', if_pos ⟨by omega, by omega⟩, if_neg (by omega), hpz j hj, hsw i hi]
    simp
  have hswge : ∀ i, r + t ≤ i → i < nr → r + t ≤ Equiv.swap p (r + t) i ∧ Equiv.swap p (r + t) i < nr := by
    intro i h1 h2
    rw [Equiv.swap_apply_def]
    split_ifs <;> omega
  have hbelow : ∀ i, r ≤ i → i < nr → ∀ j, j < c → M' i j = 0 := by
    intro i h1 h2 j hj
    by_cases h3 : i < r + t
    · rw [hleft i j h3 (by omega), h.below i h1 h2 j hj]
    · rw [hM', if_pos ⟨h2, by omega⟩]
      by_cases h4 : i = r + t
      · rw [if_pos h4, hpz j (by omega), mul_zero]
      · rw [if_neg h4, if_neg (by omega)]
        have := hswge i (by omega) h2
        exact h.below _ (by omega) this.2 j hj
  refine ⟨?_, by omega, h.lt, h.mono, ?_, ?_, hbelow, ?_, ?_, ?_⟩
  · rw [← h.span]
    let N : Nat → Nat → K := fun i j => M (Equiv.swap p (r + t) i) j
    have hN : rowSpan nr nc N = rowSpan nr nc M :=
      rowSpan_perm (Equiv.swap p (r + t)) (fun i => swap_lt hp2 hr) (fun i _ j _ => rfl)
    rw [← hN]
    apply rowSpan_addmul hr (M p (c + t))⁻¹ (inv_ne_zero hx)
      (fun i => if r ≤ i ∧ i < r + t then M i (c + t) * (M p (c + t))⁻¹ else 0)
    intro i hi j hj
    rw [hM', if_pos ⟨hi, hj⟩]
    have hNr : N (r + t) j = M p j := by simp [N]
    by_cases hir : i = r + t
    · rw [if_pos hir, if_pos hir, hNr]
    · rw [if_neg hir, if_neg hir, hNr]
      by_cases h1 : r ≤ i ∧ i < r + t
      · rw [if_pos h1, if_pos h1]
        simp only [N]; rw [hsw i h1.2]; ring
      · rw [if_neg h1, if_neg h1]; simp [N]
  · intro i hi; rw [hleft i _ (by omega) (by have := h.lt i hi; omega), h.one i hi]
  · intro i hi j hj; rw [hleft i _ (by omega) (by have := h.lt i hi; omega), h.left i hi j hj]
  · intro hf i hi k hk hki
    by_cases h1 : k < r
    · rw [hleft k _ (by omega) (by have := h.lt i hi; omega), h.above hf i hi k hk hki]
    · exact hbelow k (by omega) hk _ (h.lt i hi)
  · intro a b ha hb
    by_cases hat : a = t
    · subst hat
      rw [hM', if_pos ⟨hr, by omega⟩, if_pos rfl]
      by_cases hbt : b = a
      · subst hbt; rw [if_pos rfl, inv_mul_cancel₀ hx]
      · rw [hz b (by omega), mul_zero, if_neg (by omega)]
    · rw [hM', if_pos ⟨by omega, by omega⟩, if_neg (by omega), if_pos (by omega)]
      by_cases hbt : b = t
      · subst hbt
        rw [inv_mul_cancel₀ hx, mul_one, if_neg hat]
        exact CharTwo.add_self_eq_zero _
      · rw [hz b (by omega), mul_zero, mul_zero, add_zero, h.ident a b (by omega) (by omega)]
  · intro i j hij; rw [hM', if_neg (by omega), h.frame i j hij]

end M4rie.Spec
