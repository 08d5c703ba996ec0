import Verif.Proofs.PleRecMain

/-! # From PLE to PLUQ and to the reduced echelon form -/

namespace M4rie.Spec
open Finset

section perm
variable {Q : Nat → Nat} {r : Nat}

theorem rowPerm_fix : ∀ n x, n ≤ x → (∀ c, c < n → Q c ≠ x) → rowPerm Q n x = x
  | 0, _, _, _ => rfl
  | n + 1, x, hx, hc => by
    show rowPerm Q n (Equiv.swap n (Q n) x) = x
    rw [Equiv.swap_apply_of_ne_of_ne (by omega) (fun e => hc n (by omega) e.symm)]
    exact rowPerm_fix n x (by omega) (fun c h => hc c (by omega))

theorem rowPerm_down_lt (hm : ∀ i k, i < k → k < r → Q i < Q k) : ∀ n x c, n ≤ r → n ≤ x → c < n → Q c = x → rowPerm Q n x < n
  | 0, _, _, _, _, h, _ => absurd h (by omega)
  | n + 1, x, c, hn, hx, hc, hQ => by
    show rowPerm Q n (Equiv.swap n (Q n) x) < n + 1
    by_cases h : c = n
    · subst h
      rw [← hQ, Equiv.swap_apply_right]
      by_cases hh : ∃ d, d < c ∧ Q d = c
      · obtain ⟨d, hd, e⟩ := hh
        have := rowPerm_down_lt hm c c d (by omega) le_rfl hd e
        omega
      · push Not at hh
        rw [rowPerm_fix c c le_rfl hh]
        omega
    · have h1 := hm c n (by omega) (by omega)
      rw [Equiv.swap_apply_of_ne_of_ne (by omega) (by omega)]
      have := rowPerm_down_lt hm n x c (by omega) (by omega) (by omega) hQ
      omega

variable {nc : Nat}

theorem rowPerm_pivot (hm : ∀ i k, i < k → k < r → Q i < Q k) (hge : ∀ i, i < nc → i ≤ Q i) {k : Nat} (hk : k < r) (hkn : k < nc) : rowPerm Q nc k = Q k := by
  obtain ⟨m, rfl⟩ : ∃ m, nc = k + 1 + m := ⟨nc - (k + 1), by omega⟩
  clear hkn
  induction m with
  | zero =>
    show rowPerm Q k (Equiv.swap k (Q k) k) = Q k
    rw [Equiv.swap_apply_left]
    exact rowPerm_fix k _ (hge k (by omega)) (fun c hc => by have := hm c k hc hk; omega)
  | succ m ih =>
    show rowPerm Q (k + 1 + m) (Equiv.swap (k + 1 + m) (Q (k + 1 + m)) k) = Q k
    have := hge (k + 1 + m) (by omega)
    rw [Equiv.swap_apply_of_ne_of_ne (by omega) (by omega)]
    exact ih (fun i hi => hge i (by omega))

theorem rowPerm_split (k : Nat) : ∀ m, rowPerm Q (k + 1 + m) = rowPerm Q (k + 1) * rowPerm (permAbove Q k) (k + 1 + m)
  | 0 => by
    have : rowPerm (permAbove Q k) (k + 1) = 1 := by
      have := rowPerm_id (P := permAbove Q k) (r := 0) (k + 1) (fun i _ hi => if_neg (by omega))
      rwa [Nat.zero_add] at this
    rw [Nat.add_zero, this, mul_one]
  | m + 1 => by
    show rowPerm Q (k + 1 + m) * Equiv.swap (k + 1 + m) (Q (k + 1 + m)) =
      rowPerm Q (k + 1) * (rowPerm (permAbove Q k) (k + 1 + m) * Equiv.swap (k + 1 + m) (permAbove Q k (k + 1 + m)))
    rw [rowPerm_split k m, mul_assoc]
    congr 3
    exact (if_pos (by omega)).symm

theorem permAbove_fix (k : Nat) : ∀ n, (∀ i, i < n → i ≤ Q i) → ∀ j, j ≤ k → rowPerm (permAbove Q k) n j = j
  | 0, _, _, _ => rfl
  | n + 1, h, j, hj => by
    show rowPerm (permAbove Q k) n (Equiv.swap n (permAbove Q k n) j) = j
    by_cases hn : k < n
    · have : permAbove Q k n = Q n := if_pos hn
      have := h n (by omega)
      rw [Equiv.swap_apply_of_ne_of_ne (by omega) (by omega)]
      exact permAbove_fix k n (fun i hi => h i (by omega)) j hj
    · have : permAbove Q k n = n := if_neg hn
      rw [this, Equiv.swap_self]
      exact permAbove_fix k n (fun i hi => h i (by omega)) j hj

theorem permAbove_lt (k : Nat) (h : ∀ i, i < nc → i ≤ Q i ∧ Q i < nc) {j : Nat} (hj : k < j) (hjn : j < nc) :
    k < rowPerm (permAbove Q k) nc j ∧ rowPerm (permAbove Q k) nc j < nc := by
  constructor
  · by_contra hc
    have := permAbove_fix k nc (fun i hi => (h i hi).1) (rowPerm (permAbove Q k) nc j) (by omega)
    have := (rowPerm (permAbove Q k) nc).injective this
    omega
  · refine rowPerm_lt nc le_rfl (fun i hi => ?_) j hjn
    unfold permAbove
    split_ifs
    · exact (h i hi).2
    · exact hi

end perm

variable {K : Type*} [Field K] {nr nc r : Nat} {A F G : Nat → Nat → K} {P Q : Nat → Nat}

/-- `U*Q = E` -/
theorem IsPLE.uPart_eq (h : IsPLE nr nc r A F P Q) (hG : ∀ k j, k < r → k < j → j < nc → G k j = F k (rowPerm (permAbove Q k) nc j)) {k j : Nat}
    (hk : k < r) (hj : j < nc) : uPart G k j = ePart Q F k (rowPerm Q nc j) := by
  have hrle := h.rle
  have hge : ∀ i, i < nc → i ≤ Q i := fun i hi => (h.piv i hi).1
  unfold uPart
  rcases Nat.lt_trichotomy j k with hjk | hjk | hjk
  · rw [if_pos hjk, rowPerm_pivot h.mono hge (by omega) hj]
    exact (if_pos (h.mono j k hjk hk)).symm
  · subst hjk
    rw [if_neg (by omega), if_pos rfl, rowPerm_pivot h.mono hge hk hj]
    unfold ePart
    rw [if_neg (by omega), if_pos rfl]
  · rw [if_neg (by omega), if_neg (by omega), hG k j hk hjk hj]
    obtain ⟨a, b⟩ := permAbove_lt k h.piv hjk hj
    have hs : rowPerm Q nc j = rowPerm Q (k + 1) (rowPerm (permAbove Q k) nc j) := by
      have := rowPerm_split (Q := Q) k (nc - (k + 1))
      rw [Nat.add_sub_cancel' (by omega)] at this
      exact congrArg (fun σ : Equiv.Perm Nat => σ j) this
    rw [hs]
    set j' := rowPerm (permAbove Q k) nc j
    by_cases hc : ∃ c, c < k + 1 ∧ Q c = j'
    · obtain ⟨c, hc, e⟩ := hc
      have hle : j' ≤ Q k := by
        rcases Nat.lt_or_ge c k with h' | h'
        · have := h.mono c k h' hk; omega
        · have : c = k := by omega
          rw [← e, this]
      have hlt := rowPerm_down_lt h.mono (k + 1) j' c (by omega) (by omega) hc e
      rw [h.gap k j' hk a hle]
      unfold ePart
      have := hge k (by omega)
      rw [if_pos (by omega)]
    · push Not at hc
      rw [rowPerm_fix (k + 1) j' (by omega) hc]
      unfold ePart
      have hne := hc k (by omega)
      by_cases hlt : j' < Q k
      · rw [if_pos hlt]; exact h.gap k j' hk a hlt.le
      · rw [if_neg hlt, if_neg (fun e => hne e.symm)]

theorem IsPLE.pluq (h : IsPLE nr nc r A F P Q) (hG : ∀ k j, k < r → k < j → j < nc → G k j = F k (rowPerm (permAbove Q k) nc j))
    (hL : ∀ i j, i < nr → j < nc → j ≤ i ∨ r ≤ i → G i j = F i j) : IsPLUQ nr nc r A G P Q := by
  have hle := h.le
  have hrle := h.rle
  refine ⟨h.le, h.perm, h.piv, h.rle, fun i hi => ?_, fun i j hi hj => ?_, fun i j hi hi' hj hj' => ?_⟩
  · rw [hL i i (by omega) (by omega) (Or.inl le_rfl)]; exact h.diag i hi
  · rw [h.prod i _ hi (rowPerm_lt nc le_rfl (fun i hi => (h.piv i hi).2) j hj)]
    refine sum_congr rfl fun k hk => ?_
    have hk := mem_range.1 hk
    rw [h.uPart_eq hG hk hj]
    congr 1
    unfold lPart
    split_ifs with hki
    · exact (hL i k hi (by omega) (Or.inl hki)).symm
    · rfl
  · rw [hL i j hi' hj' (Or.inr hi)]; exact h.rest i j hi hi' hj hj'

/-- the reduced echelon form from a PLUQ decomposition: `R = [1 | U⁻¹*B]*Q` -/
theorem IsPLE.rref {T R : Nat → Nat → K} (h : IsPLE nr nc r A F P Q)
    (hU : ∀ k j, k < r → j < nc → uPart G k j = ePart Q F k (rowPerm Q nc j))
    (hI : ∀ k j, k < r → j < r → T k j = if k = j then 1 else 0)
    (hS : ∀ k j, k < r → r ≤ j → j < nc → ∑ l ∈ Ico k r, uPart G k l * T l j = uPart G k j)
    (hR : ∀ k j, k < r → j < nc → R k (rowPerm Q nc j) = T k j)
    (hz : ∀ i j, r ≤ i → i < nr → j < nc → R i j = 0) :
    IsRref nr nc r R Q ∧ rowSpan nr nc R = rowSpan nr nc A := by
  have hrle := h.rle
  have hge : ∀ i, i < nc → i ≤ Q i := fun i hi => (h.piv i hi).1
  have hσ : ∀ j, j < nc ↔ rowPerm Q nc j < nc := rowPerm_iff (fun i hi => (h.piv i hi).2)
  have hRQ : ∀ k m, k < r → m < r → R k (Q m) = if k = m then 1 else 0 := fun k m hk hm => by
    rw [← rowPerm_pivot h.mono hge hm (by omega), hR k m hk (by omega), hI k m hk hm]
  -- U * R = E
  have hE : ∀ k j, k < r → j < nc → ∑ l ∈ Ico k r, uPart G k l * R l j = ePart Q F k j := by
    intro k j hk hj
    obtain ⟨j, rfl⟩ : ∃ j', j = rowPerm Q nc j' := ⟨(rowPerm Q nc).symm j, ((rowPerm Q nc).apply_symm_apply j).symm⟩
    have hj := (hσ j).2 hj
    rw [← hU k j hk hj]
    rw [sum_congr rfl (fun l hl => by rw [hR l j (mem_Ico.1 hl).2 hj])]
    by_cases hjr : j < r
    · rw [sum_congr rfl (fun l hl => by rw [hI l j (mem_Ico.1 hl).2 hjr])]
      simp only [mul_ite, mul_one, mul_zero, sum_ite_eq', mem_Ico]
      by_cases hkj : k ≤ j
      · rw [if_pos ⟨hkj, hjr⟩]
      · rw [if_neg (by omega)]
        exact (if_pos (by omega)).symm
    · exact hS k j hk (by omega) hj
  have hleft : ∀ m k, k + m = r → ∀ k', k ≤ k' → k' < r → ∀ j, j < Q k' → R k' j = 0 := by
    intro m
    induction m with
    | zero => intro k hk k' h1 h2; omega
    | succ m ih =>
      intro k hk k' h1 h2 j hj
      rcases Nat.lt_or_ge k k' with h' | h'
      · exact ih (k + 1) (by omega) k' h' h2 j hj
      · have hkk : k' = k := by omega
        subst hkk
        have hjn : j < nc := lt_trans hj (h.piv k' (by omega)).2
        have he := hE k' j h2 hjn
        rw [sum_eq_sum_Ico_succ_bot h2] at he
        have hz : ∑ l ∈ Ico (k' + 1) r, uPart G k' l * R l j = 0 := sum_eq_zero fun l hl => by
          obtain ⟨a, b⟩ := mem_Ico.1 hl
          rw [ih (k' + 1) (by omega) l a b j (lt_trans hj (h.mono k' l a b)), mul_zero]
        rw [hz, add_zero] at he
        have h1 : uPart G k' k' = 1 := by unfold uPart; rw [if_neg (by omega), if_pos rfl]
        rw [h1, one_mul] at he
        rw [he]
        exact if_pos hj
  have hech : IsEchelon nr nc r R Q := ⟨h.le, fun i hi => (h.piv i (by omega)).2, h.mono, fun i hi => by rw [hRQ i i hi hi, if_pos rfl],
    fun i hi j hj => hleft r 0 (by omega) i (by omega) hi j hj, fun i hi hi' j hj => hz i j hi hi' hj⟩
  refine ⟨⟨hech, fun i hi k hk hki => ?_⟩, ?_⟩
  · rcases Nat.lt_or_ge k r with h' | h'
    · rw [hRQ k i h' hi, if_neg hki]
    · exact hz k _ h' hk (h.piv i (by omega)).2
  · have hle : rowSpan nr nc A ≤ rowSpan nr nc R := by
      rw [h.rowSpan_eq]
      refine rowSpan_le fun k hk => ?_
      have : rowVec nc (ePart Q F) k = ∑ l ∈ Ico k r, uPart G k l • rowVec nc R l := by
        funext j
        rw [Finset.sum_apply]
        exact (hE k j hk j.2).symm
      rw [this]
      exact Submodule.sum_mem _ fun l hl => Submodule.smul_mem _ _ (rowVec_mem (by have := (mem_Ico.1 hl).2; have := h.le; omega))
    have h1 : Module.finrank K (rowSpan nr nc A) = r := h.rank_eq
    have h2 : Module.finrank K (rowSpan nr nc R) = r := hech.rank_eq
    exact (Submodule.eq_of_le_of_finrank_eq hle (by rw [h1, h2])).symm

/-- the echelon form from a PLE decomposition -/
theorem IsPLE.ech {R : Nat → Nat → K} (h : IsPLE nr nc r A F P Q) (hR : ∀ k j, k < r → j < nc → R k j = ePart Q F k j)
    (hz : ∀ i j, r ≤ i → i < nr → j < nc → R i j = 0) : IsEchelon nr nc r R Q ∧ rowSpan nr nc R = rowSpan nr nc A := by
  have he := h.echelon
  have hech : IsEchelon nr nc r R Q := ⟨h.le, he.lt, he.mono, fun i hi => by rw [hR i _ hi (he.lt i hi)]; exact he.one i hi,
    fun i hi j hj => by rw [hR i j hi (lt_trans hj (he.lt i hi))]; exact he.left i hi j hj, fun i hi hi' j hj => hz i j hi hi' hj⟩
  refine ⟨hech, ?_⟩
  rw [hech.span_eq, h.rowSpan_eq]
  exact rowSpan_congr fun i hi j hj => hR i j hi hj

end M4rie.Spec
