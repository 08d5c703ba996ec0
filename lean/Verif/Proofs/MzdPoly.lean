import Verif.Proofs.BlmMul
import Verif.Spec.PolyMat

/-! Polynomials with matrix coefficients. -/

namespace M4rie
open Polynomial Spec Finset

/-- bit `(i,j)` of the coefficient of `x^t` of the product -/
def pconv (dA dB K : Nat) (A B : Nat → Nat → Nat → Word) (t i j : Nat) : Bool :=
  ∑ a ∈ range dA, ∑ b ∈ range dB, decide (t = a + b) * ∑ l ∈ range K, bitAt (A a) i l * bitAt (B b) l j

theorem pconv_high {dA dB K : Nat} (A B : Nat → Nat → Nat → Word) {t : Nat} (h : dA + dB - 1 ≤ t) (i j : Nat) : pconv dA dB K A B t i j = 0 := by
  refine sum_eq_zero fun a ha => sum_eq_zero fun b hb => ?_
  rw [mem_range] at ha hb
  rw [decide_eq_false (by omega)]
  exact zero_mul _

theorem polyMat_coeff (m n : Nat) (P : MzdPoly) (i : Fin m) (j : Fin n) (t : Nat) :
    (polyMat m n P i j).coeff t = if t < P.depth then gf2Entry (P.x t) i j else 0 := by
  unfold polyMat
  rw [finset_sum_coeff]
  simp only [coeff_monomial]
  rw [sum_ite_eq']
  simp only [mem_range]

theorem gf2_pconv (dA dB K : Nat) (A B : Nat → Nat → Nat → Word) (t i j : Nat) : gf2 (pconv dA dB K A B t i j) =
    ∑ a ∈ range dA, ∑ b ∈ range dB, if t = a + b then ∑ l ∈ range K, gf2Entry (A a) i l * gf2Entry (B b) l j else 0 := by
  unfold pconv
  rw [← gf2Hom_apply, map_sum]
  refine Finset.sum_congr rfl fun a _ => ?_
  rw [map_sum]
  refine Finset.sum_congr rfl fun b _ => ?_
  rw [map_mul, map_sum]
  by_cases h : t = a + b
  · rw [decide_eq_true h, if_pos h, show gf2Hom true = 1 from rfl, one_mul]
    exact Finset.sum_congr rfl fun l _ => map_mul gf2Hom _ _
  · rw [decide_eq_false h, if_neg h, show gf2Hom false = 0 from rfl, zero_mul]

theorem polyMat_mul_coeff (m K n : Nat) (A B : MzdPoly) (i : Fin m) (j : Fin n) (t : Nat) :
    ((polyMat m K A * polyMat K n B) i j).coeff t = gf2 (pconv A.depth B.depth K A.x B.x t i j) := by
  rw [gf2_pconv, Matrix.mul_apply, finset_sum_coeff]
  unfold polyMat
  simp only [sum_mul_sum, finset_sum_coeff, monomial_mul_monomial, coeff_monomial]
  rw [sum_comm]
  refine Finset.sum_congr rfl fun a _ => ?_
  rw [sum_comm]
  refine Finset.sum_congr rfl fun b _ => ?_
  by_cases h : t = a + b
  · simp only [h, if_true]
    exact Fin.sum_univ_eq_sum_range (fun l => gf2Entry (A.x a) i l * gf2Entry (B.x b) l j) K
  · have : ¬ a + b = t := fun e => h e.symm
    simp only [h, this, if_false, sum_const_zero]

/-- `X'` is `X` plus the product -/
def AddsPoly (dA dB m K n : Nat) (X A B X' : Nat → Nat → Nat → Word) : Prop :=
  ∀ t i j, bitAt (X' t) i j = bitAt (X t) i j + decide (i < m ∧ j < n) * pconv dA dB K A B t i j

theorem holdsPoly {C A B : MzdPoly} (hd : A.depth + B.depth - 1 ≤ C.depth) {X' : Nat → Nat → Nat → Word}
    (h : AddsPoly A.depth B.depth A.nrows A.ncols B.ncols C.x A.x B.x X') : HoldsPolySum { C with x := X' } C A B := by
  refine ⟨⟨rfl, rfl, rfl, rfl⟩, ?_, fun t i j ht => ?_⟩
  · ext i j t
    rw [Matrix.add_apply, coeff_add, polyMat_coeff, polyMat_coeff, polyMat_mul_coeff]
    show (if t < C.depth then gf2 (bitAt (X' t) i j) else 0) = _
    by_cases ht : t < C.depth
    · rw [if_pos ht, if_pos ht, h, decide_eq_true ⟨i.2, j.2⟩, ← gf2Hom_apply, map_add]
      refine congrArg (gf2Hom _ + ·) ?_
      rw [map_mul, show gf2Hom true = 1 from rfl, one_mul]; rfl
    · rw [if_neg ht, if_neg ht, pconv_high _ _ (by omega)]
      exact (zero_add _).symm
  · show bitAt (X' t) i j = _
    rw [h]
    by_cases hij : i < A.nrows ∧ j < B.ncols
    · rw [pconv_high _ _ (by omega)]
      exact (congrArg _ (mul_zero _)).trans (add_zero _)
    · rw [decide_eq_false hij]
      exact (congrArg _ (zero_mul _)).trans (add_zero _)

theorem mzdAddmul_bits (m K n : Nat) (C A B : Nat → Nat → Word) (i j : Nat) :
    bitAt (mzdAddmul m K n C A B) i j = bitAt C i j + decide (i < m ∧ j < n) * ∑ l ∈ range K, bitAt A i l * bitAt B l j := by
  unfold mzdAddmul
  rw [bitAt_ofBits]
  by_cases h : i < m ∧ j < n
  · rw [if_pos h, decide_eq_true h, xorRange_sum]
    exact congrArg (bitAt C i j + ·) (one_mul _).symm
  · rw [if_neg h, decide_eq_false h]
    exact ((congrArg _ (zero_mul _)).trans (add_zero _)).symm

theorem setSlice_addmul_bits (m K n : Nat) (X : Nat → Nat → Nat → Word) (A B : Nat → Nat → Word) (s t i j : Nat) :
    bitAt (setSlice X s (mzdAddmul m K n (X s) A B) t) i j =
      bitAt (X t) i j + decide (i < m ∧ j < n) * (decide (t = s) * ∑ l ∈ range K, bitAt A i l * bitAt B l j) := by
  unfold setSlice
  by_cases h : t = s
  · subst h
    rw [if_pos rfl, mzdAddmul_bits, decide_eq_true rfl]
    exact congrArg (fun z => bitAt (X t) i j + decide (i < m ∧ j < n) * z) (one_mul _).symm
  · rw [if_neg h, decide_eq_false h]
    exact ((congrArg (fun z => bitAt (X t) i j + decide (i < m ∧ j < n) * z) (zero_mul _)).trans
      ((congrArg _ (mul_zero _)).trans (add_zero _))).symm

theorem polyNaive_spec {C A B : MzdPoly} (hf : PolyFits C A B) (hd : A.depth + B.depth - 1 ≤ C.depth) :
    ∃ R, mzdPolyAddmulNaive? C A B = some R ∧ HoldsPolySum R C A B := by
  obtain ⟨X', e, hX⟩ := forNM_bits (n := A.depth) (f := fun i x => forNM (fun j x =>
      if i + j < C.depth ∧ PolyFits C A B then some (setSlice x (i + j) (mzdAddmul A.nrows A.ncols B.ncols (x (i + j)) (A.x i) (B.x j)))
      else none) B.depth x)
    (δ := fun a t i j => ∑ b ∈ range B.depth, decide (i < A.nrows ∧ j < B.ncols) * (decide (t = a + b) *
      ∑ l ∈ range A.ncols, bitAt (A.x a) i l * bitAt (B.x b) l j)) (by
    intro a ha X
    refine forNM_bits (δ := fun b t i j => decide (i < A.nrows ∧ j < B.ncols) * (decide (t = a + b) *
      ∑ l ∈ range A.ncols, bitAt (A.x a) i l * bitAt (B.x b) l j)) ?_ X
    intro b hb X
    refine ⟨_, if_pos ⟨by omega, hf⟩, fun t i j => setSlice_addmul_bits ..⟩) C.x
  refine ⟨_, congrArg (Option.map _) e, holdsPoly hd fun t i j => ?_⟩
  rw [hX]
  refine congrArg (bitAt (C.x t) i j + ·) ?_
  unfold pconv
  rw [mul_sum]
  refine Finset.sum_congr rfl fun a _ => ?_
  rw [mul_sum]

theorem polyKara_spec {C A B : MzdPoly} (hf : PolyFits C A B) (h1 : 1 ≤ A.depth) (h16 : A.depth ≤ 16) (he : A.depth = B.depth)
    (hd : A.depth + B.depth - 1 ≤ C.depth) : ∃ R, mzdPolyAddmulKara? C A B = some R ∧ HoldsPolySum R C A B := by
  unfold mzdPolyAddmulKara?
  rw [if_neg (by omega), if_neg (by omega), if_neg (not_not.2 ⟨hf, by omega⟩)]
  by_cases h : A.depth = 1
  · rw [if_pos h]
    refine ⟨_, rfl, holdsPoly hd fun t i j => ?_⟩
    rw [setSlice_addmul_bits]
    unfold pconv
    rw [← he, h]
    simp only [sum_range_one]
  · rw [if_neg h]
    obtain ⟨X', e, hX⟩ := ptrAddmulKaratsuba_spec (d := A.depth) (by omega) h16 (ff := none) (fun t _ f hf => by cases hf) A.nrows A.ncols B.ncols
      C.x A.x B.x
    refine ⟨_, congrArg (Option.map _) e, holdsPoly hd fun t i j => ?_⟩
    rw [hX]
    unfold pconv
    rw [← he]
    rfl

/-- the value of an exact map -/
theorem blmBit_pconv {dA dB : Nat} {f : Blm} (h : PolyExact dA dB f) {t : Nat} (ht : t < dA + dB - 1) (K : Nat) (A B : Nat → Nat → Nat → Word) (i j : Nat) :
    blmBit f K A B t i j = pconv dA dB K A B t i j := by
  rw [blmBit_exact (nr := dA + dB - 1) (val := blmVal none) h ht (V := fun s j => decide (j = s)) (fun a b _ _ => by
    show _ = if a + b = t then 1 else 0
    by_cases hab : a + b = t
    · rw [decide_eq_true hab.symm, if_pos hab]; rfl
    · rw [decide_eq_false (fun e => hab e.symm), if_neg hab]; rfl)]
  rfl

theorem polyBlm_spec {C A B : MzdPoly} (hf : PolyFits C A B) {f : Blm} (hx : PolyExact A.depth B.depth f) (hdj : DjbOk f)
    (hd : A.depth + B.depth - 1 ≤ C.depth)
    (hz : f.djb ≠ none → ∀ t i j, t < A.depth + B.depth - 1 → i < A.nrows → j < B.ncols → bitAt (C.x t) i j = false) :
    ∃ R, mzdPolyAddmulBlm? C A B f = some R ∧ HoldsPolySum R C A B := by
  obtain ⟨X', e, hX⟩ := ptrApplyBlm_zero hx.2.1 hx.2.2.1 hdj A.nrows A.ncols B.ncols C.x A.x B.x (by rw [hx.1]; exact hz)
  unfold mzdPolyAddmulBlm?
  rw [if_neg (not_not.2 ⟨hx.2.2.2.1, hx.2.2.2.2.1⟩), if_neg (not_not.2 ⟨hf, by rw [hx.1]; exact hd⟩)]
  refine ⟨_, congrArg (Option.map _) e, holdsPoly hd fun t i j => ?_⟩
  rw [hX, hx.1]
  refine congrArg (bitAt (C.x t) i j + ·) ?_
  by_cases ht : t < A.depth + B.depth - 1
  · rw [blmBit_pconv hx ht]
    by_cases hij : i < A.nrows ∧ j < B.ncols
    · rw [decide_eq_true hij, decide_eq_true ⟨hij.1, hij.2, ht⟩]
    · rw [decide_eq_false hij, decide_eq_false (by tauto)]
  · rw [pconv_high _ _ (by omega), decide_eq_false (by tauto)]
    exact (zero_mul _).trans (mul_zero _).symm

/-- every row of the matrix `H` of an exact map is computed by its program -/
theorem exact_targeted {dA dB : Nat} {f : Blm} (h : PolyExact dA dB f) {ph : List DjbOp} (hh : DjbComputes f.H.nrows f.H.ncols f.H.w ph) {t : Nat}
    (h1 : 1 ≤ dA) (h2 : 1 ≤ dB) (ht : t < dA + dB - 1) : djbTargets ph t := by
  by_contra hn
  obtain ⟨e1, e2, e3, e4, e5, e6⟩ := h
  have hv : ∃ v w, v < dA ∧ w < dB ∧ v + w = t := by
    by_cases hta : t < dA
    · exact ⟨t, 0, hta, h2, rfl⟩
    · exact ⟨dA - 1, t - (dA - 1), by omega, by omega, by omega⟩
  obtain ⟨v, w, hv, hw, e⟩ := hv
  have h6 := e6 t v w ht hv hw
  rw [if_pos e] at h6
  have := djb_untargeted hh (by omega) hn fun k => bitAt f.F.w k v * bitAt f.G.w k w
  have h7 := congrArg gf2Hom this
  rw [map_sum, map_zero, e2] at h7
  have : ∑ k ∈ range f.F.nrows, gf2Entry f.H.w t k * (gf2Entry f.F.w k v * gf2Entry f.G.w k w) = 0 := by
    rw [← h7]
    refine Finset.sum_congr rfl fun k _ => ?_
    rw [map_mul, map_mul]; rfl
  rw [this] at h6
  exact absurd h6 (by decide)

/-- the compiled map overwrites the coefficients of `C` -/
theorem polyBlm_overwrites {C A B : MzdPoly} (hf : PolyFits C A B) {f : Blm} (hx : PolyExact A.depth B.depth f) (hdj : DjbOk f)
    (hc : f.djb ≠ none) (hd : A.depth + B.depth - 1 ≤ C.depth) (h1 : 1 ≤ A.depth) (h2 : 1 ≤ B.depth) :
    ∃ X', mzdPolyAddmulBlm? C A B f = some { C with x := X' } ∧ ∀ t i j, bitAt (X' t) i j =
      if i < A.nrows ∧ j < B.ncols ∧ t < A.depth + B.depth - 1 then pconv A.depth B.depth A.ncols A.x B.x t i j else bitAt (C.x t) i j := by
  unfold mzdPolyAddmulBlm?
  rw [if_neg (not_not.2 ⟨hx.2.2.2.1, hx.2.2.2.2.1⟩), if_neg (not_not.2 ⟨hf, by rw [hx.1]; exact hd⟩)]
  obtain ⟨⟨pf, pg, ph⟩, hp⟩ := Option.ne_none_iff_exists'.1 hc
  obtain ⟨d1, d2, d3⟩ := hdj _ _ _ hp
  obtain ⟨X', e, hX⟩ := ptrApplyBlmDjb_bits hx.2.1 hx.2.2.1 d1 d2 d3 A.nrows A.ncols B.ncols C.x A.x B.x
  refine ⟨X', ?_, fun t i j => ?_⟩
  · unfold ptrApplyBlm?
    rw [hp]
    exact congrArg (Option.map _) e
  · rw [hX]
    by_cases hc : i < A.nrows ∧ j < B.ncols ∧ t < A.depth + B.depth - 1
    · rw [if_pos hc, if_pos ⟨hc.1, hc.2.1, exact_targeted hx d3 h1 h2 hc.2.2⟩, blmBit_pconv hx hc.2.2]
    · rw [if_neg hc, if_neg]
      rintro ⟨q1, q2, o, ho, rfl⟩
      exact hc ⟨q1, q2, by have := d3.target o ho; rw [hx.1] at this; exact this⟩

end M4rie
