import Verif.Model.Ple
import Verif.Spec.Ple
import Verif.Proofs.Trsm

/-! PLE decomposition: iterative algorithms. -/

namespace M4rie.Spec

theorem rowPerm_congr {P P' : Nat → Nat} : ∀ n, (∀ i, i < n → P i = P' i) → rowPerm P n = rowPerm P' n
  | 0, _ => rfl
  | n + 1, h => by
    show rowPerm P n * _ = rowPerm P' n * _
    rw [rowPerm_congr n (fun i hi => h i (by omega)), h n (by omega)]

theorem rowPerm_id {P : Nat → Nat} {r : Nat} : ∀ n, (∀ i, r ≤ i → i < r + n → P i = i) → rowPerm P (r + n) = rowPerm P r
  | 0, _ => rfl
  | n + 1, h => by
    show rowPerm P (r + n) * Equiv.swap (r + n) (P (r + n)) = _
    rw [h (r + n) (by omega) (by omega), Equiv.swap_self, rowPerm_id n (fun i h1 h2 => h i h1 (by omega))]
    rfl

/-- only positions `< nr` move -/
theorem rowPerm_lt {P : Nat → Nat} {nr : Nat} : ∀ n, n ≤ nr → (∀ i, i < n → P i < nr) → ∀ i, i < nr → rowPerm P n i < nr
  | 0, _, _, i, hi => hi
  | n + 1, hn, hP, i, hi => by
    show rowPerm P n (Equiv.swap n (P n) i) < nr
    apply rowPerm_lt n (by omega) (fun i hi => hP i (by omega))
    exact (swap_lt (by omega) (hP n (by omega))).1 hi

theorem rowPerm_ge {P : Nat → Nat} {nr : Nat} : ∀ n, n ≤ nr → (∀ i, i < n → P i < nr) → ∀ i, nr ≤ i → rowPerm P n i = i
  | 0, _, _, _, _ => rfl
  | n + 1, hn, hP, i, hi => by
    show rowPerm P n (Equiv.swap n (P n) i) = i
    have h1 := hP n (by omega)
    rw [Equiv.swap_apply_of_ne_of_ne (by omega) (by omega)]
    exact rowPerm_ge n (by omega) (fun i hi => hP i (by omega)) i hi

theorem rowPerm_iff {P : Nat → Nat} {nr : Nat} (hP : ∀ i, i < nr → P i < nr) (i : Nat) : i < nr ↔ rowPerm P nr i < nr := by
  constructor
  · exact rowPerm_lt nr le_rfl hP i
  · intro h
    by_contra hc
    rw [rowPerm_ge nr le_rfl hP i (by omega)] at h
    omega

variable {K : Type*} [Field K] {nr nc r c : Nat} {A X : Nat → Nat → K} {P Q : Nat → Nat}

/-- state of the PLE loops -/
structure PleInv (nr nc r c : Nat) (A X : Nat → Nat → K) (P Q : Nat → Nat) : Prop where
  le : r ≤ nr
  cle : c ≤ nc
  perm : ∀ i, i < r → i ≤ P i ∧ P i < nr
  lt : ∀ i, i < r → Q i < c
  mono : ∀ i k, i < k → k < r → Q i < Q k
  diag : ∀ i, i < r → X i (Q i) ≠ 0
  gapU : ∀ i j, i < r → j < Q i → (∀ k, k < i → j ≠ Q k) → X i j = 0
  gapL : ∀ i j, r ≤ i → i < nr → j < c → (∀ k, k < r → j ≠ Q k) → X i j = 0
  prod : ∀ i j, i < nr → j < nc → A (rowPerm P r i) j =
    ∑ k ∈ Finset.range r, (if k ≤ i then X i (Q k) else 0) * ePart Q X k j + (if r ≤ i ∧ c ≤ j then X i j else 0)
  frame : ∀ i j, ¬ (i < nr ∧ j < nc) → X i j = A i j

theorem PleInv.start : PleInv nr nc 0 0 A A P Q where
  le := Nat.zero_le _
  cle := Nat.zero_le _
  perm := fun i h => absurd h (by omega)
  lt := fun i h => absurd h (by omega)
  mono := fun i k _ h => absurd h (by omega)
  diag := fun i h => absurd h (by omega)
  gapU := fun i j h => absurd h (by omega)
  gapL := fun i j _ _ h => absurd h (by omega)
  prod := fun i j _ _ => by simp [rowPerm]
  frame := fun _ _ _ => rfl

theorem swap_ge {a b i r : Nat} (ha : r ≤ a) (hb : r ≤ b) (hi : r ≤ i) : r ≤ Equiv.swap a b i := by
  rw [Equiv.swap_apply_def]; split_ifs <;> omega

theorem PleInv.step (h2 : ∀ x : K, x + x = 0) (h : PleInv nr nc r c A X P Q) {p j0 : Nat} (hrp : r ≤ p) (hp : p < nr) (hc : c ≤ j0) (hj : j0 < nc)
    (hne : X p j0 ≠ 0) (hz : ∀ i j, r ≤ i → i < nr → c ≤ j → j < j0 → X i j = 0) {X' : Nat → Nat → K}
    (hX : ∀ i j, X' i j = if i < nr ∧ j < nc then
      (if r < i ∧ j0 < j then X (Equiv.swap r p i) j + X (Equiv.swap r p i) j0 * ((X p j0)⁻¹ * X p j)
       else if i = r ∧ j0 < j then (X p j0)⁻¹ * X p j else X (Equiv.swap r p i) j) else X i j) :
    PleInv nr nc (r + 1) (j0 + 1) A X' (setNat P r p) (setNat Q r j0) := by
  have hsr : ∀ i, i < r → Equiv.swap r p i = i := fun i hi => Equiv.swap_apply_of_ne_of_ne (by omega) (by omega)
  have hlow : ∀ i j, i < r → X' i j = X i j := by
    intro i j hi
    rw [hX, hsr i hi]
    split_ifs <;> first | rfl | omega
  have hleft : ∀ i j, i < nr → j ≤ j0 → X' i j = X (Equiv.swap r p i) j := by
    intro i j hi hj'
    rw [hX, if_pos ⟨hi, by omega⟩, if_neg (by omega), if_neg (by omega)]
  have hQ : ∀ k, k < r → setNat Q r j0 k = Q k := fun k hk => by unfold setNat; rw [if_neg (by omega)]
  have hQr : setNat Q r j0 r = j0 := by unfold setNat; rw [if_pos rfl]
  have hP : ∀ k, k < r → setNat P r p k = P k := fun k hk => by unfold setNat; rw [if_neg (by omega)]
  have hPr : setNat P r p r = p := by unfold setNat; rw [if_pos rfl]
  constructor
  · omega
  · omega
  · intro i hi
    rcases Nat.lt_succ_iff_lt_or_eq.1 hi with hi | rfl
    · rw [hP i hi]; exact h.perm i hi
    · rw [hPr]; omega
  · intro i hi
    rcases Nat.lt_succ_iff_lt_or_eq.1 hi with hi | rfl
    · rw [hQ i hi]; have := h.lt i hi; omega
    · rw [hQr]; omega
  · intro i k hik hk
    rcases Nat.lt_succ_iff_lt_or_eq.1 hk with hk | rfl
    · rw [hQ i (by omega), hQ k hk]; exact h.mono i k hik hk
    · rw [hQr, hQ i hik]; have := h.lt i hik; omega
  · intro i hi
    rcases Nat.lt_succ_iff_lt_or_eq.1 hi with hi | rfl
    · rw [hQ i hi, hlow i _ hi]; exact h.diag i hi
    · rw [hQr, hleft i _ (by omega) le_rfl, Equiv.swap_apply_left]; exact hne
  · intro i j hi hjQ hk
    rcases Nat.lt_succ_iff_lt_or_eq.1 hi with hi | rfl
    · rw [hQ i hi] at hjQ
      rw [hlow i _ hi]
      exact h.gapU i j hi hjQ (fun k hki => by have := hk k hki; rwa [hQ k (by omega)] at this)
    · rw [hQr] at hjQ
      rw [hleft i j (by omega) (by omega), Equiv.swap_apply_left]
      by_cases hjc : j < c
      · exact h.gapL p j hrp hp hjc (fun k hki => by have := hk k hki; rwa [hQ k (by omega)] at this)
      · exact hz p j hrp hp (by omega) hjQ
  · intro i j hi hin hjc hk
    have hjne : j ≠ j0 := by have := hk r (by omega); rwa [hQr] at this
    rw [hleft i j hin (by omega)]
    have hs1 : r ≤ Equiv.swap r p i := swap_ge le_rfl hrp (by omega)
    have hs2 : Equiv.swap r p i < nr := (swap_lt (by have := h.le; omega) hp).1 hin
    by_cases hjc : j < c
    · exact h.gapL _ j hs1 hs2 hjc (fun k hki => by have := hk k (by omega); rwa [hQ k hki] at this)
    · exact hz _ j hs1 hs2 (by omega) (by omega)
  · intro i j hi hjn
    have hperm : rowPerm (setNat P r p) (r + 1) i = rowPerm P r (Equiv.swap r p i) := by
      show (rowPerm (setNat P r p) r * Equiv.swap r (setNat P r p r)) i = _
      rw [hPr, rowPerm_congr r hP]; rfl
    have hs2 : Equiv.swap r p i < nr := (swap_lt (by omega) hp).1 hi
    rw [hperm, h.prod _ j hs2 hjn, Finset.sum_range_succ, hQr]
    have hE : ∀ k, k < r → ePart (setNat Q r j0) X' k j = ePart Q X k j := by
      intro k hk
      unfold ePart
      rw [hQ k hk, hlow k j hk]
    by_cases hir : i < r
    · rw [hsr i hir]
      rw [if_neg (by omega : ¬ (r ≤ i ∧ c ≤ j)), if_neg (by omega : ¬ r ≤ i), if_neg (by omega : ¬ (r + 1 ≤ i ∧ j0 + 1 ≤ j)), zero_mul, add_zero, add_zero, add_zero]
      refine Finset.sum_congr rfl fun k hk => ?_
      have hk := Finset.mem_range.1 hk
      rw [hE k hk, hQ k hk, hlow i _ hir]
    · have hir : r ≤ i := by omega
      have hs1 : r ≤ Equiv.swap r p i := swap_ge le_rfl hrp hir
      rw [if_pos hir, hleft i j0 hi le_rfl]
      have e1 : ∑ k ∈ Finset.range r, (if k ≤ Equiv.swap r p i then X (Equiv.swap r p i) (Q k) else 0) * ePart Q X k j =
          ∑ k ∈ Finset.range r, (if k ≤ i then X' i (setNat Q r j0 k) else 0) * ePart (setNat Q r j0) X' k j := by
        refine Finset.sum_congr rfl fun k hk => ?_
        have hk := Finset.mem_range.1 hk
        rw [hE k hk, hQ k hk, if_pos (by omega), if_pos (by omega), hleft i (Q k) hi (by have := h.lt k hk; omega)]
      rw [e1, add_assoc]
      congr 1
      rcases Nat.lt_trichotomy j j0 with hlt | heq | hgt
      · have e2 : ePart (setNat Q r j0) X' r j = 0 := by unfold ePart; rw [hQr, if_pos hlt]
        rw [e2, mul_zero, if_neg (by omega : ¬ (r + 1 ≤ i ∧ j0 + 1 ≤ j)), zero_add]
        split_ifs with hcj
        · exact hz _ j hs1 hs2 hcj.2 hlt
        · rfl
      · subst heq
        have e2 : ePart (setNat Q r j) X' r j = 1 := by unfold ePart; rw [hQr, if_neg (by omega), if_pos rfl]
        rw [e2, mul_one, if_neg (by omega : ¬ (r + 1 ≤ i ∧ j + 1 ≤ j)), add_zero, if_pos ⟨hs1, hc⟩]
      · have e2 : ePart (setNat Q r j0) X' r j = (X p j0)⁻¹ * X p j := by
          unfold ePart
          rw [hQr, if_neg (by omega), if_neg (by omega), hX, if_pos ⟨by omega, hjn⟩, if_neg (by omega), if_pos ⟨rfl, hgt⟩]
        rw [e2, if_pos ⟨hs1, by omega⟩]
        by_cases hi2 : i = r
        · subst hi2
          rw [if_neg (by omega : ¬ (i + 1 ≤ i ∧ j0 + 1 ≤ j)), add_zero, Equiv.swap_apply_left, ← mul_assoc, mul_inv_cancel₀ hne, one_mul]
        · rw [if_pos (by omega : r + 1 ≤ i ∧ j0 + 1 ≤ j), hX, if_pos ⟨hi, hjn⟩, if_pos ⟨by omega, hgt⟩]
          rw [add_comm (X (Equiv.swap r p i) j), ← add_assoc, h2, zero_add]
  · intro i j hij
    rw [hX, if_neg hij]; exact h.frame i j hij

theorem PleInv.qle (h : PleInv nr nc r c A X P Q) : ∀ i, i < r → i ≤ Q i := by
  intro i
  induction i with
  | zero => intro _; omega
  | succ i ih => intro hi; have := ih (by omega); have := h.mono i (i + 1) (by omega) hi; omega

theorem PleInv.rc (h : PleInv nr nc r c A X P Q) : r ≤ c := by
  rcases Nat.eq_zero_or_pos r with h0 | h0
  · omega
  · have := h.qle (r - 1) (by omega); have := h.lt (r - 1) (by omega); omega

/-- the matrix after moving the columns of `L` to the left -/
theorem PleInv.finish (h : PleInv nr nc r c A X P Q) (hz : ∀ i j, r ≤ i → i < nr → c ≤ j → j < nc → X i j = 0) {F : Nat → Nat → K}
    {P' Q' : Nat → Nat} (hP' : ∀ i, P' i = if r ≤ i ∧ i < nr then i else P i) (hQ' : ∀ i, Q' i = if r ≤ i ∧ i < nc then i else Q i)
    (hF1 : ∀ i j, i < nr → j < r → j ≤ i → F i j = X i (Q j))
    (hF2 : ∀ i j, i < nr → ¬ (j < r ∧ j ≤ i) → F i j = if ∃ k, k < r ∧ k ≤ i ∧ j = Q k then 0 else X i j) :
    IsPLE nr nc r A F P' Q' := by
  have hQle : ∀ i, i < r → i ≤ Q i := by
    intro i
    induction i with
    | zero => intro _; omega
    | succ i ih => intro hi; have := ih (by omega); have := h.mono i (i + 1) (by omega) hi; omega
  have hQr : ∀ i, i < r → Q' i = Q i := fun i hi => by rw [hQ', if_neg (by omega)]
  have hE : ∀ k j, k < r → ePart Q' F k j = ePart Q X k j := by
    intro k j hk
    unfold ePart
    rw [hQr k hk]
    by_cases h1 : j < Q k
    · rw [if_pos h1, if_pos h1]
    · by_cases h2 : j = Q k
      · rw [if_neg h1, if_neg h1, if_pos h2, if_pos h2]
      · rw [if_neg h1, if_neg h1, if_neg h2, if_neg h2]
        have := hQle k hk
        rw [hF2 k j (by have := h.le; omega) (by omega), if_neg]
        rintro ⟨k', hk', hk'k, rfl⟩
        rcases Nat.lt_or_eq_of_le hk'k with h3 | h3
        · have := h.mono k' k h3 hk; omega
        · subst h3; omega
  constructor
  · exact h.le
  · intro i hi
    rw [hP']
    split_ifs with h1
    · omega
    · exact h.perm i (by omega)
  · intro i hi
    rw [hQ']
    split_ifs with h1
    · omega
    · have := hQle i (by omega); have := h.lt i (by omega); have := h.cle; omega
  · rcases Nat.eq_zero_or_pos r with h0 | h0
    · omega
    · have := hQle (r - 1) (by omega); have := h.lt (r - 1) (by omega); have := h.cle; omega
  · intro i k hik hk
    rw [hQr i (by omega), hQr k hk]; exact h.mono i k hik hk
  · intro i hi
    rw [hF1 i i (by have := h.le; omega) hi le_rfl]; exact h.diag i hi
  · intro i j hi hj
    have e0 : rowPerm P' nr = rowPerm P r := by
      obtain ⟨d, hd⟩ : ∃ d, nr = r + d := ⟨nr - r, by have := h.le; omega⟩
      rw [hd, rowPerm_id d (fun i h1 h2 => by rw [hP', if_pos ⟨h1, by omega⟩])]
      exact rowPerm_congr r (fun i hi => by rw [hP', if_neg (by omega)])
    rw [e0, h.prod i j hi hj]
    have e1 : (if r ≤ i ∧ c ≤ j then X i j else 0) = 0 := by
      split_ifs with h1
      · exact hz i j h1.1 hi h1.2 hj
      · rfl
    rw [e1, add_zero]
    refine Finset.sum_congr rfl fun k hk => ?_
    have hk := Finset.mem_range.1 hk
    rw [hE k j hk]
    congr 1
    unfold lPart
    split_ifs with hki
    · rw [hF1 i k hi hk hki]
    · rfl
  · intro i j hi hij hjQ
    rw [hQr i hi] at hjQ
    rw [hF2 i j (by have := h.le; omega) (by omega)]
    split_ifs with hex
    · rfl
    · push Not at hex
      refine h.gapU i j hi ?_ (fun k hk => hex k (by omega) (by omega))
      have := hex i hi le_rfl; omega
  · intro i j hri hi hrj hj
    rw [hF2 i j hi (by omega)]
    split_ifs with hex
    · rfl
    · push Not at hex
      by_cases hjc : j < c
      · exact h.gapL i j hri hi hjc (fun k hk => hex k hk (by omega))
      · exact hz i j hri hi (by omega) hj

/-! ### consequences of a decomposition -/

variable {F : Nat → Nat → K}

theorem IsPLE.echelon (h : IsPLE nr nc r A F P Q) : IsEchelon r nc r (ePart Q F) Q where
  le := le_rfl
  lt := fun i hi => (h.piv i (by have := h.rle; omega)).2
  mono := h.mono
  one := fun i hi => by unfold ePart; simp
  left := fun i hi j hj => by unfold ePart; simp [hj]
  zero := fun i h1 h2 => absurd h1 (by omega)

theorem IsPLE.rowSpan_eq (h : IsPLE nr nc r A F P Q) : rowSpan nr nc A = rowSpan r nc (ePart Q F) := by
  have hperm : rowSpan nr nc (fun i j => A (rowPerm P nr i) j) = rowSpan nr nc A :=
    rowSpan_perm (rowPerm P nr) (rowPerm_iff (fun i hi => (h.perm i hi).2)) (fun _ _ _ _ => rfl)
  rw [← hperm]
  have hrow : ∀ i, i < nr → rowVec nc (fun i j => A (rowPerm P nr i) j) i = ∑ k ∈ Finset.range r, lPart F i k • rowVec nc (ePart Q F) k := by
    intro i hi
    funext j
    simp only [rowVec, Finset.sum_apply, Pi.smul_apply, smul_eq_mul]
    exact h.prod i j hi j.2
  apply le_antisymm
  · apply rowSpan_le
    intro i hi
    rw [hrow i hi]
    exact Submodule.sum_mem _ fun k hk => Submodule.smul_mem _ _ (rowVec_mem (Finset.mem_range.1 hk))
  · have key : ∀ i, i < r → rowVec nc (ePart Q F) i ∈ rowSpan nr nc (fun i j => A (rowPerm P nr i) j) := by
      intro i
      induction i using Nat.strong_induction_on with
      | _ i ih =>
        intro hi
        have hin : i < nr := by have := h.le; omega
        have h1 := hrow i hin
        have e1 : ∑ k ∈ Finset.range r, lPart F i k • rowVec nc (ePart Q F) k =
            ∑ k ∈ Finset.range i, F i k • rowVec nc (ePart Q F) k + F i i • rowVec nc (ePart Q F) i := by
          rw [← Finset.sum_range_succ]
          have : Finset.range (i + 1) ⊆ Finset.range r := Finset.range_subset_range.2 (by omega)
          rw [← Finset.sum_subset this]
          · refine Finset.sum_congr rfl fun k hk => ?_
            have := Finset.mem_range.1 hk
            unfold lPart
            rw [if_pos (by omega)]
          · intro k _ hk
            rw [Finset.mem_range] at hk
            unfold lPart
            rw [if_neg (by omega), zero_smul]
        rw [e1] at h1
        have h3 : rowVec nc (ePart Q F) i = (F i i)⁻¹ • (rowVec nc (fun i j => A (rowPerm P nr i) j) i - ∑ k ∈ Finset.range i, F i k • rowVec nc (ePart Q F) k) := by
          rw [h1, add_sub_cancel_left, smul_smul, inv_mul_cancel₀ (h.diag i hi), one_smul]
        rw [h3]
        apply Submodule.smul_mem
        apply Submodule.sub_mem _ (rowVec_mem hin)
        refine Submodule.sum_mem _ fun k hk => Submodule.smul_mem _ _ (ih k (Finset.mem_range.1 hk) (by have := Finset.mem_range.1 hk; omega))
    exact rowSpan_le key

theorem IsPLE.rank_eq (h : IsPLE nr nc r A F P Q) : rank nr nc A = r := by
  unfold rank
  rw [h.rowSpan_eq]
  exact h.echelon.rank_eq

end M4rie.Spec

namespace M4rie
open M4rie.Spec
variable {ff : Gf2e} [IsField ff]

theorem plePivot_spec (X : Mat ff) (r : Nat) : ∀ n j,
    (plePivot X.pack r n j = none ∧ ∀ i k, r ≤ i → i < X.nrows → j ≤ k → k < j + n → X.e i k = 0) ∨
    ∃ p q, plePivot X.pack r n j = some (p, q) ∧ r ≤ p ∧ p < X.nrows ∧ j ≤ q ∧ q < j + n ∧ X.e p q ≠ 0 ∧
      ∀ i k, r ≤ i → i < X.nrows → j ≤ k → k < q → X.e i k = 0 := by
  intro n
  induction n with
  | zero => intro j; left; exact ⟨rfl, fun i k _ _ h1 h2 => by omega⟩
  | succ n ih =>
    intro j
    unfold plePivot
    rw [pack_nrows]
    rcases findPivot_spec X j (X.nrows - r) r with ⟨e1, e2⟩ | ⟨p, e1, e2, e3, e4, _⟩
    · rw [e1]
      have hcol : ∀ i, r ≤ i → i < X.nrows → X.e i j = 0 := fun i h1 h2 => e2 i h1 (by omega)
      rcases ih (j + 1) with ⟨h1, h2⟩ | ⟨p, q, h1, h2, h3, h4, h5, h6, h7⟩
      · left
        refine ⟨h1, fun i k hi1 hi2 hk1 hk2 => ?_⟩
        by_cases hkj : k = j
        · rw [hkj]; exact hcol i hi1 hi2
        · exact h2 i k hi1 hi2 (by omega) (by omega)
      · right
        refine ⟨p, q, h1, h2, h3, by omega, by omega, h6, fun i k hi1 hi2 hk1 hk2 => ?_⟩
        by_cases hkj : k = j
        · rw [hkj]; exact hcol i hi1 hi2
        · exact h7 i k hi1 hi2 (by omega) hk2
    · rw [e1]
      right
      exact ⟨p, j, rfl, e2, by omega, le_rfl, by omega, e4, fun i k _ _ h1 h2 => by omega⟩

/-- what one elimination step has to do to the matrix `S` (rows already swapped, pivot `S r j0`) -/
def ClearOk {τ : Type} (ok : Nat → τ → Prop) (clear : Nat → Nat → Word → Mzed × τ → Mzed × τ) : Prop :=
  ∀ (S : Mat ff) (r j0 : Nat) (t : τ) (x : Elem ff), r < S.nrows → j0 + 1 < S.ncols → ok S.ncols t → x = S.e r j0 →
    ∃ (Z : Mat ff), (clear r j0 x.1 (S.pack, t)).1 = Z.pack ∧ ok S.ncols (clear r j0 x.1 (S.pack, t)).2 ∧ SameMat Z S ∧
      ∀ i j, Z.e i j = if i < S.nrows ∧ j < S.ncols then
        (if r < i ∧ j0 < j then S.e i j + S.e i j0 * (x⁻¹ * S.e r j) else if i = r ∧ j0 < j then x⁻¹ * S.e r j else S.e i j) else S.e i j

theorem pleLoop_spec {τ : Type} {ok : Nat → τ → Prop} {clear : Nat → Nat → Word → Mzed × τ → Mzed × τ} (hclear : ClearOk (ff := ff) ok clear) (X0 : Mat ff) :
    ∀ fuel (X : Mat ff) P Q r c t, SameMat X X0 → ok X0.ncols t → PleInv X0.nrows X0.ncols r c X0.e X.e P Q → X0.ncols ≤ c + fuel →
      ∃ (Z : Mat ff) (P' Q' : Nat → Nat) (r' c' : Nat) (t' : τ), pleLoop clear fuel ⟨X.pack, P, Q, r, c, t⟩ = ⟨Z.pack, P', Q', r', c', t'⟩ ∧ SameMat Z X0 ∧
        PleInv X0.nrows X0.ncols r' c' X0.e Z.e P' Q' ∧ (∀ i j, r' ≤ i → i < X0.nrows → c' ≤ j → j < X0.ncols → Z.e i j = 0) ∧
        (∀ i, X0.nrows ≤ i → P' i = P i) ∧ (∀ i, X0.ncols ≤ i → Q' i = Q i) := by
  intro fuel
  induction fuel with
  | zero =>
    intro X P Q r c t hs ht hinv hf
    exact ⟨X, P, Q, r, c, t, rfl, hs, hinv, fun i j _ _ h1 h2 => by omega, fun _ _ => rfl, fun _ _ => rfl⟩
  | succ fuel ih =>
    intro X P Q r c t hs ht hinv hf
    unfold pleLoop
    simp only [pack_nrows, pack_ncols, hs.nrows, hs.ncols]
    by_cases hcond : r < X0.nrows ∧ c < X0.ncols
    · rw [if_pos hcond]
      rcases plePivot_spec X r (X0.ncols - c) c with ⟨e1, e2⟩ | ⟨p, q, e1, e2, e3, e4, e5, e6, e7⟩
      · rw [e1]
        exact ⟨X, P, Q, r, c, t, rfl, hs, hinv, fun i j h1 h2 h3 h4 => e2 i j h1 (by rw [hs.nrows]; exact h2) h3 (by omega), fun _ _ => rfl, fun _ _ => rfl⟩
      · rw [e1]
        simp only [read_pack]
        rw [swapRows_pack]
        rw [hs.nrows] at e3 e7
        have hS : ∀ i j, (X.swapRows r p).e i j = if j < X0.ncols then X.e (Equiv.swap r p i) j else X.e i j := by
          intro i j; unfold Mat.swapRows; rw [hs.ncols]
        have hsame : SameMat (X.swapRows r p) X0 := ⟨hs.nrows, hs.ncols, hs.fid⟩
        have hncS : (X.swapRows r p).ncols = X0.ncols := hs.ncols
        have hnrS : (X.swapRows r p).nrows = X0.nrows := hs.nrows
        have hpiv : X.e p q = (X.swapRows r p).e r q := by rw [hS, if_pos (by omega), Equiv.swap_apply_left]
        have h2 : ∀ x : Elem ff, x + x = 0 := elem_add_self
        -- the effect of the step on the entries
        have hstep : ∀ (Z : Mat ff) (t' : τ), SameMat Z X0 → ok X0.ncols t' → (∀ i j, Z.e i j = if i < X0.nrows ∧ j < X0.ncols then
            (if r < i ∧ q < j then (X.swapRows r p).e i j + (X.swapRows r p).e i q * ((X.e p q)⁻¹ * (X.swapRows r p).e r j)
              else if i = r ∧ q < j then (X.e p q)⁻¹ * (X.swapRows r p).e r j else (X.swapRows r p).e i j) else (X.swapRows r p).e i j) →
            ∃ (Z' : Mat ff) (P' Q' : Nat → Nat) (r' c' : Nat) (t'' : τ),
              pleLoop clear fuel ⟨Z.pack, setNat P r p, setNat Q r q, r + 1, q + 1, t'⟩ = ⟨Z'.pack, P', Q', r', c', t''⟩ ∧ SameMat Z' X0 ∧
              PleInv X0.nrows X0.ncols r' c' X0.e Z'.e P' Q' ∧ (∀ i j, r' ≤ i → i < X0.nrows → c' ≤ j → j < X0.ncols → Z'.e i j = 0) ∧
              (∀ i, X0.nrows ≤ i → P' i = P i) ∧ (∀ i, X0.ncols ≤ i → Q' i = Q i) := by
          intro Z t' hZs ht' hZ
          have hrc := hinv.rc
          have hinv' : PleInv X0.nrows X0.ncols (r + 1) (q + 1) X0.e Z.e (setNat P r p) (setNat Q r q) := by
            refine hinv.step h2 e2 e3 e4 (by omega) e6 e7 ?_
            intro i j
            rw [hZ i j]
            by_cases hij : i < X0.nrows ∧ j < X0.ncols
            · rw [if_pos hij, if_pos hij]
              simp only [hS, if_pos hij.2, if_pos (show q < X0.ncols by omega), Equiv.swap_apply_left]
            · rw [if_neg hij, if_neg hij, hS]
              by_cases hj : j < X0.ncols
              · rw [if_pos hj, Equiv.swap_apply_of_ne_of_ne (by omega) (by omega)]
              · rw [if_neg hj]
          obtain ⟨Z', P', Q', r', c', t'', w1, w2, w3, w4, w5, w6⟩ := ih Z (setNat P r p) (setNat Q r q) (r + 1) (q + 1) t' hZs ht' hinv' (by omega)
          refine ⟨Z', P', Q', r', c', t'', w1, w2, w3, w4, fun i hi => ?_, fun i hi => ?_⟩
          · rw [w5 i hi]; unfold setNat; rw [if_neg (by omega)]
          · rw [w6 i hi]; unfold setNat; rw [if_neg (by omega)]
        simp only [pack_ncols, hncS]
        by_cases hlast : q + 1 < X0.ncols
        · obtain ⟨Z, z1, z2, z3, z4⟩ := hclear (X.swapRows r p) r q t (X.e p q) (by rw [hnrS]; exact hcond.1) (by rw [hncS]; exact hlast)
            (by rw [hncS]; exact ht) hpiv
          simp only [if_pos hlast]
          rw [z1]
          rw [hncS] at z2
          refine hstep Z _ ⟨z3.nrows.trans hsame.nrows, z3.ncols.trans hsame.ncols, z3.fid.trans hsame.fid⟩ z2 ?_
          intro i j; rw [z4 i j, hnrS, hncS]
        · simp only [if_neg hlast]
          refine hstep (X.swapRows r p) t hsame ht ?_
          intro i j
          by_cases hij : i < X0.nrows ∧ j < X0.ncols
          · rw [if_pos hij, if_neg (by omega), if_neg (by omega)]
          · rw [if_neg hij]
    · rw [if_neg hcond]
      refine ⟨X, P, Q, r, c, t, rfl, hs, hinv, fun i j h1 h2 h3 h4 => ?_, fun _ _ => rfl, fun _ _ => rfl⟩
      have := hinv.le; omega

/-- the columns of `L` are moved to the left one after the other -/
theorem compress_spec (X : Mat ff) (Q : Nat → Nat) (r : Nat) (hle : ∀ i, i < r → i ≤ Q i) (hmono : ∀ i k, i < k → k < r → Q i < Q k)
    (hgap : ∀ i m, i < X.nrows → m < r → m ≤ i → m < Q m → (∀ k, k < m → m ≠ Q k) → X.e i m = 0) :
    ∀ n, n ≤ r → ∃ Z : Mat ff, forN (fun i A => mzedColSwapInRows A i (Q i) i A.nrows) n X.pack = Z.pack ∧ SameMat Z X ∧
      (∀ i j, i < X.nrows → j < n → j ≤ i → Z.e i j = X.e i (Q j)) ∧
      (∀ i j, i < X.nrows → ¬ (j < n ∧ j ≤ i) → Z.e i j = if ∃ k, k < n ∧ k ≤ i ∧ j = Q k then 0 else X.e i j) ∧
      (∀ i j, X.nrows ≤ i → Z.e i j = X.e i j) := by
  intro n
  induction n with
  | zero =>
    intro _
    refine ⟨X, rfl, SameMat.refl X, fun i j _ h => absurd h (by omega), fun i j _ _ => ?_, fun _ _ _ => rfl⟩
    rw [if_neg]; rintro ⟨k, hk, -⟩; omega
  | succ n ih =>
    intro hn
    obtain ⟨Z, h1, h2, h3, h4, h5⟩ := ih (by omega)
    refine ⟨Z.swapColsIn n (Q n) n X.nrows, ?_, ⟨h2.nrows, h2.ncols, h2.fid⟩, ?_, ?_, ?_⟩
    · show mzedColSwapInRows (forN _ n X.pack) n (Q n) n (forN _ n X.pack).nrows = _
      rw [h1, pack_nrows, h2.nrows, swapColsIn_pack]
    · intro i j hi hj hji
      have hS : (Z.swapColsIn n (Q n) n X.nrows).e i j = if n ≤ i ∧ i < X.nrows then Z.e i (Equiv.swap n (Q n) j) else Z.e i j := rfl
      rw [hS]
      have hQn := hle n (by omega)
      by_cases hjn : j = n
      · subst hjn
        rw [if_pos ⟨hji, hi⟩, Equiv.swap_apply_left, h4 i (Q j) hi (by omega), if_neg]
        rintro ⟨k, hk1, hk2, hk3⟩
        have := hmono k j hk1 (by omega); omega
      · have e : Equiv.swap n (Q n) j = j := Equiv.swap_apply_of_ne_of_ne hjn (by omega)
        rw [e, ite_self]
        exact h3 i j hi (by omega) hji
    · intro i j hi hj
      have hS : (Z.swapColsIn n (Q n) n X.nrows).e i j = if n ≤ i ∧ i < X.nrows then Z.e i (Equiv.swap n (Q n) j) else Z.e i j := rfl
      rw [hS]
      have hQn := hle n (by omega)
      by_cases hni : n ≤ i
      · rw [if_pos ⟨hni, hi⟩]
        by_cases hjQ : j = Q n
        · subst hjQ
          rw [Equiv.swap_apply_right, if_pos ⟨n, by omega, hni, rfl⟩]
          by_cases hQe : Q n = n
          · exact absurd ⟨by omega, by omega⟩ hj
          · rw [h4 i n hi (by omega)]
            split_ifs with hex
            · rfl
            · push Not at hex
              exact hgap i n hi (by omega) hni (by omega) (fun k hk => hex k hk (by omega))
        · have hjn : j ≠ n := by rintro rfl; exact hj ⟨by omega, hni⟩
          rw [Equiv.swap_apply_of_ne_of_ne hjn hjQ, h4 i j hi (by omega)]
          have hiff : (∃ k, k < n ∧ k ≤ i ∧ j = Q k) ↔ ∃ k, k < n + 1 ∧ k ≤ i ∧ j = Q k := by
            constructor
            · rintro ⟨k, a, b, c⟩; exact ⟨k, by omega, b, c⟩
            · rintro ⟨k, a, b, c⟩
              refine ⟨k, ?_, b, c⟩
              rcases Nat.lt_succ_iff_lt_or_eq.1 a with h | h
              · exact h
              · subst h; exact absurd c hjQ
          simp only [hiff]
      · rw [if_neg (by omega), h4 i j hi (by omega)]
        have hiff : (∃ k, k < n ∧ k ≤ i ∧ j = Q k) ↔ ∃ k, k < n + 1 ∧ k ≤ i ∧ j = Q k := by
          constructor
          · rintro ⟨k, a, b, c⟩; exact ⟨k, by omega, b, c⟩
          · rintro ⟨k, a, b, c⟩; exact ⟨k, by omega, b, c⟩
        simp only [hiff]
    · intro i j hi
      have hS : (Z.swapColsIn n (Q n) n X.nrows).e i j = if n ≤ i ∧ i < X.nrows then Z.e i (Equiv.swap n (Q n) j) else Z.e i j := rfl
      rw [hS, if_neg (by omega)]; exact h5 i j hi

theorem pleIter_spec {τ : Type} {ok : Nat → τ → Prop} {clear : Nat → Nat → Word → Mzed × τ → Mzed × τ} (hclear : ClearOk (ff := ff) ok clear) (X0 : Mat ff)
    (P Q : Nat → Nat) (t : τ) (ht : ok X0.ncols t) :
    ∃ (Z : Mat ff) (P' Q' : Nat → Nat) (r : Nat), pleFinish (pleLoop clear X0.ncols ⟨X0.pack, P, Q, 0, 0, t⟩) = (Z.pack, P', Q', r) ∧ SameMat Z X0 ∧
      IsPLE X0.nrows X0.ncols r X0.e Z.e P' Q' ∧ Frame Z X0 ∧ (∀ i, X0.nrows ≤ i → P' i = P i) ∧ (∀ i, X0.ncols ≤ i → Q' i = Q i) ∧
      (∀ i, r ≤ i → i < X0.ncols → Q' i = i) ∧ (∀ i, r ≤ i → i < X0.nrows → P' i = i) := by
  obtain ⟨X, P', Q', r, c, t', h1, h2, h3, h4, h5, h6⟩ := pleLoop_spec hclear X0 X0.ncols X0 P Q 0 0 t (SameMat.refl X0) ht PleInv.start (by omega)
  rw [h1]
  unfold pleFinish
  simp only [pack_nrows, pack_ncols, h2.nrows, h2.ncols]
  have hrc := h3.rc
  have hcn := h3.cle
  have hQr : ∀ i, i < r → (if r ≤ i ∧ i < X0.ncols then i else Q' i) = Q' i := fun i hi => if_neg (by omega)
  have hqmono : ∀ k m, k ≤ m → m < r → Q' k ≤ Q' m := by
    intro k m hkm hm
    rcases Nat.lt_or_eq_of_le hkm with h | h
    · exact le_of_lt (h3.mono k m h hm)
    · rw [h]
  obtain ⟨Z, z1, z2, z3, z4, z5⟩ := compress_spec X (fun i => if r ≤ i ∧ i < X0.ncols then i else Q' i) r
    (fun i hi => by rw [hQr i hi]; exact h3.qle i hi) (fun i k hik hk => by rw [hQr i (by omega), hQr k hk]; exact h3.mono i k hik hk) (by
      intro i m hi hm hmi hmQ hk
      rw [hQr m hm] at hmQ
      have hne : ∀ k, k < r → m ≠ Q' k := by
        intro k hkr
        rcases Nat.lt_or_ge k m with hlt | hge
        · have := hk k hlt; rwa [hQr k hkr] at this
        · have := hqmono m k hge hkr; omega
      rw [h2.nrows] at hi
      by_cases hir : i < r
      · exact h3.gapU i m hir (by have := hqmono m i hmi hir; omega) (fun k hk => hne k (by omega))
      · exact h3.gapL i m (by omega) hi (by omega) hne) r le_rfl
  rw [h2.nrows] at z3 z4 z5
  refine ⟨Z, _, _, r, by rw [z1], ⟨z2.nrows.trans h2.nrows, z2.ncols.trans h2.ncols, z2.fid.trans h2.fid⟩,
    h3.finish h4 (fun _ => rfl) (fun _ => rfl) ?_ ?_, ?_, ?_, ?_, ?_, fun i h1 h2 => if_pos ⟨h1, h2⟩⟩
  · intro i j hi hj hji
    rw [z3 i j hi hj hji]
    beta_reduce
    rw [hQr j hj]
  · intro i j hi hj
    rw [z4 i j hi hj]
    have hiff : (∃ k, k < r ∧ k ≤ i ∧ j = (fun i => if r ≤ i ∧ i < X0.ncols then i else Q' i) k) ↔ ∃ k, k < r ∧ k ≤ i ∧ j = Q' k := by
      constructor
      · rintro ⟨k, a, b, c⟩; exact ⟨k, a, b, by rw [c]; exact hQr k a⟩
      · rintro ⟨k, a, b, c⟩; exact ⟨k, a, b, by rw [c]; exact (hQr k a).symm⟩
    simp only [hiff]
  · intro i j hij
    rw [← h3.frame i j hij]
    by_cases hi : i < X0.nrows
    · rw [z4 i j hi (by omega), if_neg]
      rintro ⟨k, a, b, c⟩
      beta_reduce at c
      rw [hQr k a] at c
      have := h3.lt k a; omega
    · exact z5 i j (by omega)
  · intro i hi
    beta_reduce
    rw [if_neg (by omega)]; exact h5 i hi
  · intro i hi
    beta_reduce
    rw [if_neg (by omega)]; exact h6 i hi
  · intro i h1 h2
    beta_reduce
    rw [if_pos ⟨h1, h2⟩]

/-! ### the two ways of clearing -/

theorem clearLoop_pack (S : Mat ff) (r j0 : Nat) (hj : j0 + 1 < S.ncols) :
    ∀ n, ∃ Z : Mat ff, forN (fun d A =>
        let l := r + 1 + d
        let tmp := mzedReadElem A l j0
        if tmp ≠ 0#64 then mzedAddMultipleOfRow A l A r tmp (j0 + 1) else A) n S.pack = Z.pack ∧ SameMat Z S ∧
      ∀ i j, Z.e i j = if r < i ∧ i < r + 1 + n ∧ j0 < j ∧ j < S.ncols then S.e i j + S.e i j0 * S.e r j else S.e i j := by
  intro n
  induction n with
  | zero =>
    refine ⟨S, rfl, SameMat.refl S, fun i j => ?_⟩
    rw [if_neg (by omega)]
  | succ n ih =>
    obtain ⟨Z, h1, h2, h3⟩ := ih
    have hcol : ∀ i, Z.e i j0 = S.e i j0 := fun i => by rw [h3, if_neg (by omega)]
    have hrow : ∀ j, Z.e r j = S.e r j := fun j => by rw [h3, if_neg (by omega)]
    show ∃ Z' : Mat ff, (let tmp := mzedReadElem (forN _ n S.pack) (r + 1 + n) j0
      if tmp ≠ 0#64 then mzedAddMultipleOfRow (forN _ n S.pack) (r + 1 + n) (forN _ n S.pack) r tmp (j0 + 1) else (forN _ n S.pack)) = Z'.pack ∧ _
    rw [h1]
    simp only [read_pack]
    by_cases hz : Z.e (r + 1 + n) j0 = 0
    · rw [if_neg (by rw [val_ne_zero]; exact fun h => h hz)]
      refine ⟨Z, rfl, h2, fun i j => ?_⟩
      rw [h3]
      by_cases hi : i = r + 1 + n
      · subst hi
        rw [hcol] at hz
        rw [if_neg (by omega), hz, zero_mul, add_zero, ite_self]
      · by_cases hc : r < i ∧ i < r + 1 + n ∧ j0 < j ∧ j < S.ncols
        · rw [if_pos hc, if_pos (by omega)]
        · rw [if_neg hc, if_neg (by omega)]
    · rw [if_pos (by rw [val_ne_zero]; exact hz), addMul_pack _ _ _ _ _ (by rw [h2.ncols]; exact hj)]
      refine ⟨_, rfl, ⟨h2.nrows, h2.ncols, h2.fid⟩, fun i j => ?_⟩
      unfold Mat.addMul
      simp only
      rw [h2.ncols, hcol, hrow]
      by_cases hi : i = r + 1 + n ∧ j0 + 1 ≤ j ∧ j < S.ncols
      · rw [if_pos hi, if_pos (by omega), h3, if_neg (by omega), hi.1]
      · rw [if_neg hi, h3]
        by_cases hc : r < i ∧ i < r + 1 + n ∧ j0 < j ∧ j < S.ncols
        · rw [if_pos hc, if_pos (by omega)]
        · rw [if_neg hc, if_neg (by omega)]

theorem rescale_e (S : Mat ff) (r j0 : Nat) (x : Elem ff) (i j : Nat) :
    (S.rescale r (j0 + 1) x).e i j = if i = r ∧ j0 < j ∧ j < S.ncols then x * S.e r j else S.e i j := by
  unfold Mat.rescale
  simp only
  by_cases h : i = r ∧ j0 + 1 ≤ j ∧ j < S.ncols
  · rw [if_pos h, if_pos (by omega), h.1]
  · rw [if_neg h, if_neg (by omega)]

theorem clearNaive_ok : ClearOk (ff := ff) (fun _ _ => True) pleClearNaive := by
  intro S r j0 t x hr hj _ hx
  unfold pleClearNaive
  simp only [pack_ff]
  rw [inv_pack, rescale_pack _ _ _ hj]
  obtain ⟨Z, h1, h2, h3⟩ := clearLoop_pack (S.rescale r (j0 + 1) x⁻¹) r j0 hj ((S.rescale r (j0 + 1) x⁻¹).pack.nrows - (r + 1))
  refine ⟨Z, h1, trivial, ⟨h2.nrows, h2.ncols, h2.fid⟩, fun i j => ?_⟩
  rw [h3]
  have e1 : (S.rescale r (j0 + 1) x⁻¹).pack.nrows = S.nrows := rfl
  have e2 : (S.rescale r (j0 + 1) x⁻¹).ncols = S.ncols := rfl
  rw [e1, e2]
  by_cases hij : i < S.nrows ∧ j < S.ncols
  · rw [if_pos hij]
    by_cases hc : r < i ∧ j0 < j
    · rw [if_pos hc, if_pos (by omega), rescale_e, if_neg (by omega), rescale_e, if_neg (by omega), rescale_e, if_pos ⟨rfl, hc.2, hij.2⟩]
    · rw [if_neg hc, if_neg (by omega), rescale_e]
      by_cases hc2 : i = r ∧ j0 < j
      · rw [if_pos hc2, if_pos (by omega)]
      · rw [if_neg hc2, if_neg (by omega)]
  · rw [if_neg hij, if_neg (by omega), rescale_e, if_neg (by omega)]

theorem clearNj_ok {cb : Codebook} (hcb : cb.Ok ff.degree) :
    ClearOk (ff := ff) (fun n T => ∃ XM XT, NjtOk ff n T XM XT) (pleClearNj cb) := by
  intro S r j0 t x hr hj ⟨XM, XT, hT⟩ hx
  unfold pleClearNj
  simp only [pack_ff]
  rw [inv_pack, rescale_pack _ _ _ hj]
  obtain ⟨XM', XT', hT', hTab, -, -⟩ := mzedMakeTable_spec hcb (S.rescale r (j0 + 1) x⁻¹) r (j0 + 1) hT hj
  obtain ⟨Z, h1, h2, h3, h4, h5⟩ := processRows_pack (S.rescale r (j0 + 1) x⁻¹) (S.rescale r (j0 + 1) x⁻¹) (XTs := fun _ => XT') 1 (r + 1)
    (S.rescale r (j0 + 1) x⁻¹).pack.nrows j0 (fun _ => r) (fun _ => j0 + 1) rfl (fun _ _ => hT'.Teq) (fun _ _ => hT'.T0) (fun _ _ => hTab)
    (fun _ _ => by omega) (fun _ _ => by have := (okW_ff (ff := ff)).lpos; omega)
  refine ⟨Z, h1, ⟨XM', XT', hT'⟩, ⟨h2, h3, h4⟩, fun i j => ?_⟩
  rw [h5]
  have e1 : (S.rescale r (j0 + 1) x⁻¹).pack.nrows = S.nrows := rfl
  have e2 : (S.rescale r (j0 + 1) x⁻¹).ncols = S.ncols := rfl
  simp only [e1, e2, Finset.sum_range_one, Nat.add_zero]
  by_cases hij : i < S.nrows ∧ j < S.ncols
  · rw [if_pos hij]
    by_cases hc : r < i ∧ j0 < j
    · rw [if_pos hc, if_pos (by omega), if_pos (by omega), rescale_e, if_neg (by omega), rescale_e, if_neg (by omega), rescale_e, if_pos ⟨rfl, hc.2, hij.2⟩]
    · rw [if_neg hc]
      have e3 : (if r + 1 ≤ i ∧ i < S.nrows ∧ j < S.ncols then (S.rescale r (j0 + 1) x⁻¹).e i j +
          (if j0 + 1 ≤ j then (S.rescale r (j0 + 1) x⁻¹).e i j0 * (S.rescale r (j0 + 1) x⁻¹).e r j else 0) else (S.rescale r (j0 + 1) x⁻¹).e i j) =
          (S.rescale r (j0 + 1) x⁻¹).e i j := by
        by_cases hri : r + 1 ≤ i ∧ i < S.nrows ∧ j < S.ncols
        · rw [if_pos hri, if_neg (by omega), add_zero]
        · rw [if_neg hri]
      rw [e3, rescale_e]
      by_cases hc2 : i = r ∧ j0 < j
      · rw [if_pos hc2, if_pos (by omega)]
      · rw [if_neg hc2, if_neg (by omega)]
  · rw [if_neg hij, if_neg (by omega), rescale_e, if_neg (by omega)]

/-- what a PLE routine does to the matrix -/
def PleOk (X0 : Mat ff) (P Q : Nat → Nat) (res : Mzed × (Nat → Nat) × (Nat → Nat) × Nat) : Prop :=
  ∃ (Z : Mat ff) (P' Q' : Nat → Nat) (r : Nat), res = (Z.pack, P', Q', r) ∧ SameMat Z X0 ∧
      IsPLE X0.nrows X0.ncols r X0.e Z.e P' Q' ∧ Frame Z X0 ∧ (∀ i, X0.nrows ≤ i → P' i = P i) ∧ (∀ i, X0.ncols ≤ i → Q' i = Q i) ∧
      (∀ i, r ≤ i → i < X0.ncols → Q' i = i) ∧ (∀ i, r ≤ i → i < X0.nrows → P' i = i)

theorem pleNaive_pack (X0 : Mat ff) (P Q : Nat → Nat) : PleOk X0 P Q (mzedPleNaive X0.pack P Q) :=
  pleIter_spec clearNaive_ok X0 P Q () trivial

theorem pleNj_pack {cb : Codebook} (hcb : cb.Ok ff.degree) (X0 : Mat ff) (P Q : Nat → Nat) : PleOk X0 P Q (mzedPleNewtonJohn cb X0.pack P Q) :=
  pleIter_spec (clearNj_ok hcb) X0 P Q _ (njtInit_ok _ _)

end M4rie
