import Verif.Spec.LinAlg

/-! Row spaces, rank of an echelon form, uniqueness of the reduced echelon form. -/

namespace M4rie.Spec

variable {K : Type*} [Field K] {nr nc : Nat}

theorem rowVec_mem {M : Nat → Nat → K} {i : Nat} (hi : i < nr) : rowVec nc M i ∈ rowSpan nr nc M :=
  Submodule.subset_span ⟨⟨i, hi⟩, rfl⟩

theorem rowSpan_le {M : Nat → Nat → K} {V : Submodule K (Fin nc → K)} (h : ∀ i, i < nr → rowVec nc M i ∈ V) :
    rowSpan nr nc M ≤ V := by
  apply Submodule.span_le.2
  rintro _ ⟨i, rfl⟩
  exact h i i.2

theorem rowSpan_congr {M M' : Nat → Nat → K} (h : ∀ i, i < nr → ∀ j, j < nc → M i j = M' i j) :
    rowSpan nr nc M = rowSpan nr nc M' := by
  unfold rowSpan
  congr 2
  funext i j
  exact h i i.2 j j.2

theorem mem_rowSpan {M : Nat → Nat → K} {v : Fin nc → K} :
    v ∈ rowSpan nr nc M ↔ ∃ c : Fin nr → K, ∑ i, c i • rowVec nc M i = v := by
  unfold rowSpan
  rw [Submodule.mem_span_range_iff_exists_fun]

/-- `M'` arises from `M` by adding multiples of row `p` (scaled by `x ≠ 0`) to the other rows. -/
theorem rowSpan_addmul {M M' : Nat → Nat → K} {p : Nat} (hp : p < nr) (x : K) (hx : x ≠ 0) (f : Nat → K)
    (h : ∀ i, i < nr → ∀ j, j < nc → M' i j = if i = p then x * M p j else M i j + f i * M p j) :
    rowSpan nr nc M' = rowSpan nr nc M := by
  have hrow : ∀ i, i < nr → rowVec nc M' i = if i = p then x • rowVec nc M p else rowVec nc M i + f i • rowVec nc M p := by
    intro i hi
    funext j
    have := h i hi j j.2
    unfold rowVec
    rw [this]
    split_ifs <;> rfl
  apply le_antisymm
  · apply rowSpan_le
    intro i hi
    rw [hrow i hi]
    split_ifs
    · exact Submodule.smul_mem _ _ (rowVec_mem hp)
    · exact Submodule.add_mem _ (rowVec_mem hi) (Submodule.smul_mem _ _ (rowVec_mem hp))
  · have hpm : rowVec nc M p ∈ rowSpan nr nc M' := by
      have h1 := hrow p hp
      rw [if_pos rfl] at h1
      have : rowVec nc M p = x⁻¹ • rowVec nc M' p := by rw [h1, smul_smul, inv_mul_cancel₀ hx, one_smul]
      rw [this]
      exact Submodule.smul_mem _ _ (rowVec_mem hp)
    apply rowSpan_le
    intro i hi
    by_cases hip : i = p
    · rw [hip]; exact hpm
    · have h1 := hrow i hi
      rw [if_neg hip] at h1
      have : rowVec nc M i = rowVec nc M' i - f i • rowVec nc M p := by rw [h1]; simp
      rw [this]
      exact Submodule.sub_mem _ (rowVec_mem hi) (Submodule.smul_mem _ _ hpm)

/-- permuting rows -/
theorem rowSpan_perm {M M' : Nat → Nat → K} (σ : Equiv.Perm Nat) (hσ : ∀ i, i < nr ↔ σ i < nr)
    (h : ∀ i, i < nr → ∀ j, j < nc → M' i j = M (σ i) j) : rowSpan nr nc M' = rowSpan nr nc M := by
  apply le_antisymm
  · apply rowSpan_le
    intro i hi
    have : rowVec nc M' i = rowVec nc M (σ i) := by funext j; exact h i hi j j.2
    rw [this]; exact rowVec_mem ((hσ i).1 hi)
  · apply rowSpan_le
    intro i hi
    have hi' : σ.symm i < nr := by rw [hσ]; simpa using hi
    have : rowVec nc M i = rowVec nc M' (σ.symm i) := by
      funext j
      have := h _ hi' j j.2
      simp only [Equiv.apply_symm_apply] at this
      exact this.symm
    rw [this]; exact rowVec_mem hi'

theorem swap_lt {a b i n : Nat} (ha : a < n) (hb : b < n) : i < n ↔ Equiv.swap a b i < n := by
  rw [Equiv.swap_apply_def]
  split_ifs <;> omega

section echelon
variable {r : Nat} {M : Nat → Nat → K} {piv : Nat → Nat}

/-- the span of an echelon form is spanned by its first `r` rows -/
theorem IsEchelon.span_eq (h : IsEchelon nr nc r M piv) : rowSpan nr nc M = rowSpan r nc M := by
  apply le_antisymm
  · apply rowSpan_le
    intro i hi
    by_cases hr : i < r
    · exact rowVec_mem hr
    · have : rowVec nc M i = 0 := by funext j; exact h.zero i (by omega) hi j j.2
      rw [this]; exact Submodule.zero_mem _
  · apply rowSpan_le
    intro i hi
    exact rowVec_mem (by have := h.le; omega)

theorem IsEchelon.linearIndependent (h : IsEchelon nr nc r M piv) :
    LinearIndependent K (fun i : Fin r => rowVec nc M i) := by
  rw [Fintype.linearIndependent_iff]
  intro c hc
  have key : ∀ n (hn : n < r), c ⟨n, hn⟩ = 0 := by
    intro n
    induction n using Nat.strong_induction_on with
    | _ n ih =>
      intro hn
      have h1 := congrFun hc ⟨piv n, h.lt n hn⟩
      simp only [Finset.sum_apply, Pi.smul_apply, smul_eq_mul, Pi.zero_apply, rowVec] at h1
      rw [Finset.sum_eq_single ⟨n, hn⟩] at h1
      · simpa [h.one n hn] using h1
      · intro k _ hk
        have hk' : k.1 ≠ n := fun h => hk (Fin.ext h)
        rcases Nat.lt_or_gt_of_ne hk' with hlt | hgt
        · rw [ih k hlt k.2, zero_mul]
        · rw [h.left k k.2 _ (h.mono n k hgt k.2), mul_zero]
      · intro hx; exact absurd (Finset.mem_univ _) hx
  intro i; exact key i i.2

theorem IsEchelon.rank_eq (h : IsEchelon nr nc r M piv) : rank nr nc M = r := by
  unfold rank
  rw [h.span_eq]
  unfold rowSpan
  rw [finrank_span_eq_card h.linearIndependent, Fintype.card_fin]

/-- coefficients of a vector of the row space of a reduced form are its entries at the pivots -/
theorem IsRref.mem (h : IsRref nr nc r M piv) {v : Fin nc → K} (hv : v ∈ rowSpan nr nc M) :
    v = ∑ i : Fin r, v ⟨piv i, h.lt i i.2⟩ • rowVec nc M i := by
  rw [h.toIsEchelon.span_eq, mem_rowSpan] at hv
  obtain ⟨c, rfl⟩ := hv
  apply Finset.sum_congr rfl
  intro i _
  congr 1
  simp only [Finset.sum_apply, Pi.smul_apply, smul_eq_mul, rowVec]
  rw [Finset.sum_eq_single i]
  · rw [h.one i i.2, mul_one]
  · intro k _ hk
    rw [h.above i i.2 k (by have := h.le; omega) (fun h => hk (Fin.ext h)), mul_zero]
  · intro hx; exact absurd (Finset.mem_univ _) hx

/-- a non-zero vector of the row space has its first non-zero entry at a pivot -/
theorem IsRref.leading (h : IsRref nr nc r M piv) {v : Fin nc → K} (hv : v ∈ rowSpan nr nc M) {p : Nat} (hp : p < nc)
    (hp0 : v ⟨p, hp⟩ ≠ 0) (hleft : ∀ j (hj : j < nc), j < p → v ⟨j, hj⟩ = 0) : ∃ i, i < r ∧ piv i = p := by
  by_contra hno
  push Not at hno
  apply hp0
  have hm := congrFun (h.mem hv) ⟨p, hp⟩
  rw [hm]
  simp only [Finset.sum_apply, Pi.smul_apply, smul_eq_mul, rowVec]
  apply Finset.sum_eq_zero
  intro i _
  rcases Nat.lt_trichotomy (piv i) p with hlt | heq | hgt
  · rw [hleft (piv i) (h.lt i i.2) hlt, zero_mul]
  · exact absurd heq (hno i i.2)
  · rw [h.left i i.2 p hgt, mul_zero]

/-- a non-zero vector of the row space of an echelon form has its first non-zero entry at a pivot -/
theorem IsEchelon.leading (h : IsEchelon nr nc r M piv) {v : Fin nc → K} (hv : v ∈ rowSpan nr nc M) {p : Nat} (hp : p < nc)
    (hp0 : v ⟨p, hp⟩ ≠ 0) (hleft : ∀ j (hj : j < nc), j < p → v ⟨j, hj⟩ = 0) : ∃ i, i < r ∧ piv i = p := by
  rw [h.span_eq, mem_rowSpan] at hv
  obtain ⟨c, rfl⟩ := hv
  by_contra hno
  push Not at hno
  -- all coefficients of rows with pivots left of `p` vanish
  have hc : ∀ i (hi : i < r), piv i < p → c ⟨i, hi⟩ = 0 := by
    intro i
    induction i using Nat.strong_induction_on with
    | _ i ih =>
      intro hi hpi
      have h1 := hleft (piv i) (h.lt i hi) hpi
      simp only [Finset.sum_apply, Pi.smul_apply, smul_eq_mul, rowVec] at h1
      rw [Finset.sum_eq_single ⟨i, hi⟩] at h1
      · simpa [h.one i hi] using h1
      · intro k _ hk
        have hk' : k.1 ≠ i := fun h => hk (Fin.ext h)
        rcases Nat.lt_or_gt_of_ne hk' with hlt | hgt
        · rw [ih k hlt k.2 (by have := h.mono k i hlt hi; omega), zero_mul]
        · rw [h.left k k.2 _ (h.mono i k hgt k.2), mul_zero]
      · intro hx; exact absurd (Finset.mem_univ _) hx
  apply hp0
  simp only [Finset.sum_apply, Pi.smul_apply, smul_eq_mul, rowVec]
  apply Finset.sum_eq_zero
  intro i _
  rcases Nat.lt_trichotomy (piv i) p with hlt | heq | hgt
  · rw [hc i i.2 hlt, zero_mul]
  · exact absurd heq (hno i i.2)
  · rw [h.left i i.2 p hgt, mul_zero]

end echelon

theorem strictMono_enum {r : Nat} {f g : Nat → Nat} (hf : ∀ i k, i < k → k < r → f i < f k)
    (hg : ∀ i k, i < k → k < r → g i < g k)
    (hfg : ∀ i, i < r → ∃ k, k < r ∧ g k = f i) (hgf : ∀ i, i < r → ∃ k, k < r ∧ f k = g i) :
    ∀ i, i < r → f i = g i := by
  intro i
  induction i using Nat.strong_induction_on with
  | _ i ih =>
    intro hi
    obtain ⟨k, hk, hk2⟩ := hfg i hi
    obtain ⟨l, hl, hl2⟩ := hgf i hi
    have h1 : i ≤ k := by
      by_contra hc
      have := ih k (by omega) hk
      have := hf k i (by omega) hi
      omega
    have h2 : i ≤ l := by
      by_contra hc
      have := ih l (by omega) hl
      have := hg l i (by omega) hi
      omega
    rcases Nat.lt_or_ge i k with h3 | h3
    · have a1 := hg i k h3 hk
      rcases Nat.lt_or_ge i l with h4 | h4
      · have := hf i l h4 hl; omega
      · have : l = i := by omega
        subst this; omega
    · have : k = i := by omega
      subst this; omega

/-- The reduced row echelon form of a row space is unique. -/
theorem IsRref.unique {r r' : Nat} {M M' : Nat → Nat → K} {piv piv' : Nat → Nat} (h : IsRref nr nc r M piv)
    (h' : IsRref nr nc r' M' piv') (hs : rowSpan nr nc M = rowSpan nr nc M') :
    r = r' ∧ (∀ i, i < r → piv i = piv' i) ∧ ∀ i, i < nr → ∀ j, j < nc → M i j = M' i j := by
  have hr : r = r' := by
    rw [← h.toIsEchelon.rank_eq, ← h'.toIsEchelon.rank_eq]; unfold rank; rw [hs]
  subst hr
  have hp : ∀ i, i < r → piv i = piv' i := by
    apply strictMono_enum h.mono h'.mono
    · intro i hi
      have hm : rowVec nc M i ∈ rowSpan nr nc M' := by rw [← hs]; exact rowVec_mem (by have := h.le; omega)
      exact h'.leading hm (h.lt i hi) (by unfold rowVec; simp [h.one i hi]) (fun j _ hlt => h.left i hi j hlt)
    · intro i hi
      have hm : rowVec nc M' i ∈ rowSpan nr nc M := by rw [hs]; exact rowVec_mem (by have := h'.le; omega)
      exact h.leading hm (h'.lt i hi) (by unfold rowVec; simp [h'.one i hi]) (fun j _ hlt => h'.left i hi j hlt)
  refine ⟨rfl, hp, ?_⟩
  intro i hi j hj
  by_cases hir : i < r
  · have hm : rowVec nc M i - rowVec nc M' i ∈ rowSpan nr nc M :=
      Submodule.sub_mem _ (rowVec_mem hi) (by rw [hs]; exact rowVec_mem hi)
    have h0 : rowVec nc M i - rowVec nc M' i = 0 := by
      rw [h.mem hm]
      apply Finset.sum_eq_zero
      intro k _
      have : (rowVec nc M i - rowVec nc M' i) ⟨piv k, h.lt k k.2⟩ = 0 := by
        simp only [Pi.sub_apply, rowVec]
        by_cases hik : i = k
        · subst hik
          rw [h.one _ hir, hp _ hir, h'.one _ hir, sub_self]
        · rw [h.above k k.2 i hi hik, hp k k.2, h'.above k k.2 i hi hik, sub_self]
      rw [this, zero_smul]
    have := congrFun h0 ⟨j, hj⟩
    simp only [Pi.sub_apply, rowVec, Pi.zero_apply] at this
    exact sub_eq_zero.1 this
  · rw [h.zero i (by omega) hi j hj, h'.zero i (by omega) hi j hj]

end M4rie.Spec
