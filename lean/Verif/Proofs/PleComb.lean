import Verif.Proofs.Ple

/-! # Combining the PLE decompositions of two halves -/

namespace M4rie.Spec
open Finset

theorem rowPerm_shift {P P1 P2 : Nat → Nat} {r : Nat} (h1 : ∀ i, i < r → P i = P1 i) :
    ∀ n, (∀ s, s < n → P (r + s) = r + P2 s) →
      (∀ s, rowPerm P (r + n) (r + s) = rowPerm P1 r (r + rowPerm P2 n s)) ∧ (∀ i, i < r → rowPerm P (r + n) i = rowPerm P1 r i)
  | 0, _ => ⟨fun s => by rw [Nat.add_zero, rowPerm_congr r h1]; rfl, fun i _ => by rw [Nat.add_zero, rowPerm_congr r h1]⟩
  | n + 1, h => by
    obtain ⟨e1, e2⟩ := rowPerm_shift h1 n (fun s hs => h s (by omega))
    constructor
    · intro s
      show rowPerm P (r + n) (Equiv.swap (r + n) (P (r + n)) (r + s)) = rowPerm P1 r (r + rowPerm P2 n (Equiv.swap n (P2 n) s))
      rw [← e1, h n (by omega)]
      congr 1
      rw [Equiv.swap_apply_def, Equiv.swap_apply_def]
      split_ifs <;> omega
    · intro i hi
      show rowPerm P (r + n) (Equiv.swap (r + n) (P (r + n)) i) = _
      rw [h n (by omega), Equiv.swap_apply_of_ne_of_ne (by omega) (by omega), e2 i hi]

variable {K : Type*} [Field K]

theorem IsPLE.combine {nr nc n1 r1 r2 : Nat} {A F1 S F2 F X : Nat → Nat → K} {P1 Q1 P2 Q2 P Q : Nat → Nat}
    (h1 : IsPLE nr n1 r1 A F1 P1 Q1) (hP1 : ∀ i, r1 ≤ i → i < nr → P1 i = i) (hn : n1 ≤ nc)
    (hX : ∀ i j, i < r1 → j < nc - n1 → ∑ k ∈ range (i + 1), F1 i k * X k j = A (rowPerm P1 nr i) (n1 + j))
    (hS : ∀ s j, s < nr - r1 → j < nc - n1 → A (rowPerm P1 nr (r1 + s)) (n1 + j) = ∑ k ∈ range r1, F1 (r1 + s) k * X k j + S s j)
    (h2 : IsPLE (nr - r1) (nc - n1) r2 S F2 P2 Q2)
    (hF00 : ∀ i j, i < r1 → j < n1 → F i j = F1 i j)
    (hF01 : ∀ i j, i < r1 → j < nc - n1 → F i (n1 + j) = X i j)
    (hF10 : ∀ s j, s < nr - r1 → j < r1 → F (r1 + s) j = F1 (r1 + rowPerm P2 (nr - r1) s) j)
    (hL : ∀ s t, s < nr - r1 → t < r2 → t ≤ s → F (r1 + s) (r1 + t) = F2 s t)
    (hZ : ∀ s j, s < nr - r1 → r1 + min r2 (s + 1) ≤ j → j < n1 + min r2 (s + 1) → F (r1 + s) j = 0)
    (hR : ∀ s j, s < nr - r1 → j < nc - n1 → min r2 (s + 1) ≤ j → F (r1 + s) (n1 + j) = F2 s j)
    (hPl : ∀ i, i < r1 → P i = P1 i) (hPh : ∀ s, s < nr - r1 → P (r1 + s) = r1 + P2 s)
    (hQl : ∀ i, i < r1 → Q i = Q1 i) (hQh : ∀ t, t < r2 → Q (r1 + t) = n1 + Q2 t)
    (hQ : ∀ i, i < nc → i ≤ Q i ∧ Q i < nc) : IsPLE nr nc (r1 + r2) A F P Q := by
  have hle1 := h1.le
  have hle2 := h2.le
  have hrle1 := h1.rle
  have hrle2 := h2.rle
  have hQ2 : ∀ t, t < r2 → t ≤ Q2 t ∧ Q2 t < nc - n1 := fun t ht => h2.piv t (by omega)
  have hQ1 : ∀ i, i < r1 → Q1 i < n1 := fun i hi => (h1.piv i (by omega)).2
  obtain ⟨e1, e2⟩ := rowPerm_shift hPl (nr - r1) hPh
  rw [Nat.add_sub_cancel' hle1] at e1 e2
  have hid : rowPerm P1 nr = rowPerm P1 r1 := by
    have := rowPerm_id (P := P1) (r := r1) (nr - r1) (fun i h h' => hP1 i h (by omega))
    rwa [Nat.add_sub_cancel' hle1] at this
  -- the parts of F
  have hlo : ∀ i j, i < r1 → lPart F i j = lPart F1 i j := by
    intro i j hi
    unfold lPart
    split_ifs with h
    · exact hF00 i j hi (by omega)
    · rfl
  have hEl : ∀ k j, k < r1 → j < n1 → ePart Q F k j = ePart Q1 F1 k j := by
    intro k j hk hj
    unfold ePart
    rw [hQl k hk, hF00 k j hk hj]
  have hEr : ∀ k j, k < r1 → j < nc - n1 → ePart Q F k (n1 + j) = X k j := by
    intro k j hk hj
    unfold ePart
    have := hQ1 k hk
    rw [hQl k hk, if_neg (by omega), if_neg (by omega), hF01 k j hk hj]
  have hEz : ∀ t j, t < r2 → j < n1 → ePart Q F (r1 + t) j = 0 := by
    intro t j ht hj
    unfold ePart
    rw [hQh t ht, if_pos (by omega)]
  have hE2 : ∀ t j, t < r2 → j < nc - n1 → ePart Q F (r1 + t) (n1 + j) = ePart Q2 F2 t j := by
    intro t j ht hj
    have := hQ2 t ht
    unfold ePart
    rw [hQh t ht]
    rcases Nat.lt_trichotomy j (Q2 t) with h | h | h
    · rw [if_pos (by omega), if_pos h]
    · rw [if_neg (by omega), if_pos (by omega), if_neg (by omega), if_pos h]
    · rw [if_neg (by omega), if_neg (by omega), if_neg (by omega), if_neg (by omega), hR t j (by omega) hj (by omega)]
  have hl2 : ∀ s t, s < nr - r1 → t < r2 → lPart F (r1 + s) (r1 + t) = lPart F2 s t := by
    intro s t hs ht
    unfold lPart
    by_cases h : t ≤ s
    · rw [if_pos (by omega), if_pos h, hL s t hs ht h]
    · rw [if_neg (by omega), if_neg h]
  have hsplit : ∀ i j, ∑ k ∈ range (r1 + r2), lPart F i k * ePart Q F k j =
      ∑ k ∈ range r1, lPart F i k * ePart Q F k j + ∑ t ∈ range r2, lPart F i (r1 + t) * ePart Q F (r1 + t) j :=
    fun i j => sum_range_add _ _ _
  have hσ : ∀ s, s < nr - r1 → rowPerm P2 (nr - r1) s < nr - r1 := fun s hs =>
    rowPerm_lt (nr - r1) le_rfl (fun i hi => (h2.perm i hi).2) s hs
  refine ⟨by omega, ?_, hQ, by omega, ?_, ?_, ?_, ?_, ?_⟩
  · intro i hi
    by_cases h : i < r1
    · rw [hPl i h]; exact h1.perm i hi
    · obtain ⟨s, rfl⟩ : ∃ s, i = r1 + s := ⟨i - r1, by omega⟩
      rw [hPh s (by omega)]
      have := h2.perm s (by omega)
      omega
  · intro i k hik hk
    by_cases h : k < r1
    · rw [hQl i (by omega), hQl k h]; exact h1.mono i k hik h
    · obtain ⟨t, rfl⟩ : ∃ t, k = r1 + t := ⟨k - r1, by omega⟩
      rw [hQh t (by omega)]
      by_cases h' : i < r1
      · rw [hQl i h']
        have := hQ1 i h'
        omega
      · obtain ⟨u, rfl⟩ : ∃ u, i = r1 + u := ⟨i - r1, by omega⟩
        rw [hQh u (by omega)]
        have := h2.mono u t (by omega) (by omega)
        omega
  · intro i hi
    by_cases h : i < r1
    · rw [hF00 i i h (by omega)]; exact h1.diag i h
    · obtain ⟨t, rfl⟩ : ∃ t, i = r1 + t := ⟨i - r1, by omega⟩
      rw [hL t t (by omega) (by omega) le_rfl]
      exact h2.diag t (by omega)
  · intro i j hi hj
    rw [hsplit]
    by_cases hi1 : i < r1
    · -- upper rows
      have hz : ∑ t ∈ range r2, lPart F i (r1 + t) * ePart Q F (r1 + t) j = 0 :=
        sum_eq_zero fun t _ => by unfold lPart; rw [if_neg (by omega), zero_mul]
      rw [hz, add_zero, e2 i hi1, ← hid]
      by_cases hj1 : j < n1
      · rw [h1.prod i j hi hj1]
        exact sum_congr rfl fun k hk => by rw [hlo i k hi1, hEl k j (mem_range.1 hk) hj1]
      · obtain ⟨j, rfl⟩ : ∃ j', j = n1 + j' := ⟨j - n1, by omega⟩
        rw [← hX i j hi1 (by omega)]
        have : r1 = (i + 1) + (r1 - (i + 1)) := by omega
        rw [this, sum_range_add (fun k => lPart F i k * ePart Q F k (n1 + j)) (i + 1)]
        have hz2 : ∑ x ∈ range (r1 - (i + 1)), lPart F i (i + 1 + x) * ePart Q F (i + 1 + x) (n1 + j) = 0 :=
          sum_eq_zero fun t _ => by unfold lPart; rw [if_neg (by omega), zero_mul]
        rw [hz2, add_zero]
        refine sum_congr rfl fun k hk => ?_
        have hk := mem_range.1 hk
        rw [hlo i k hi1, hEr k j (by omega) (by omega)]
        unfold lPart
        rw [if_pos (by omega)]
    · obtain ⟨s, rfl⟩ : ∃ s, i = r1 + s := ⟨i - r1, by omega⟩
      have hs : s < nr - r1 := by omega
      have hlo' : ∀ k, k < r1 → lPart F (r1 + s) k = F1 (r1 + rowPerm P2 (nr - r1) s) k := by
        intro k hk
        unfold lPart
        rw [if_pos (by omega), hF10 s k hs hk]
      rw [e1 s, ← hid]
      have := hσ s hs
      by_cases hj1 : j < n1
      · rw [h1.prod _ j (by omega) hj1]
        have hz : ∑ t ∈ range r2, lPart F (r1 + s) (r1 + t) * ePart Q F (r1 + t) j = 0 :=
          sum_eq_zero fun t ht => by rw [hEz t j (mem_range.1 ht) hj1, mul_zero]
        rw [hz, add_zero]
        refine sum_congr rfl fun k hk => ?_
        have hk := mem_range.1 hk
        rw [hlo' k hk, hEl k j hk hj1]
        unfold lPart
        rw [if_pos (by omega)]
      · obtain ⟨j, rfl⟩ : ∃ j', j = n1 + j' := ⟨j - n1, by omega⟩
        rw [hS _ j this (by omega), h2.prod s j hs (by omega)]
        congr 1
        · refine sum_congr rfl fun k hk => ?_
          have hk := mem_range.1 hk
          rw [hlo' k hk, hEr k j hk (by omega)]
        · exact sum_congr rfl fun t ht => by rw [hl2 s t hs (mem_range.1 ht), hE2 t j (mem_range.1 ht) (by omega)]
  · intro i j hi hij hjQ
    by_cases h : i < r1
    · rw [hQl i h] at hjQ
      have := hQ1 i h
      rw [hF00 i j h (by omega)]
      exact h1.gap i j h hij hjQ
    · obtain ⟨s, rfl⟩ : ∃ t, i = r1 + t := ⟨i - r1, by omega⟩
      rw [hQh s (by omega)] at hjQ
      have := hQ2 s (by omega)
      have hm : min r2 (s + 1) = s + 1 := by omega
      by_cases hjn : j < n1 + (s + 1)
      · exact hZ s j (by omega) (by rw [hm]; omega) (by rw [hm]; omega)
      · obtain ⟨j, rfl⟩ : ∃ j', j = n1 + j' := ⟨j - n1, by omega⟩
        rw [hR s j (by omega) (by omega) (by omega)]
        exact h2.gap s j (by omega) (by omega) (by omega)
  · intro i j hi hir hj hjn
    obtain ⟨s, rfl⟩ : ∃ t, i = r1 + t := ⟨i - r1, by omega⟩
    have hm : min r2 (s + 1) = r2 := by omega
    by_cases h : j < n1 + r2
    · exact hZ s j (by omega) (by rw [hm]; omega) (by rw [hm]; omega)
    · obtain ⟨j, rfl⟩ : ∃ j', j = n1 + j' := ⟨j - n1, by omega⟩
      rw [hR s j (by omega) (by omega) (by omega)]
      exact h2.rest s j (by omega) (by omega) (by omega) (by omega)

end M4rie.Spec
