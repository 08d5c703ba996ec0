import Verif.Proofs.ConvMat
import Verif.Proofs.Kara

/-! Operations on sliced matrices, in terms of the stored field elements. -/

namespace M4rie
open M4rie.Spec Finset

variable {ff : Gf2e} [IsField ff]

/-! ### bits of elements -/

/-- bit `k` of an element, as an additive map -/
def ebit (k : Nat) : Elem ff →+ Bool where
  toFun x := x.1.getLsbD k
  map_zero' := elem_zero_bit k
  map_add' x y := by
    show (x.1 ^^^ y.1).getLsbD k = _
    rw [BitVec.getLsbD_xor]; rfl

theorem ebit_apply (k : Nat) (x : Elem ff) : ebit k x = x.1.getLsbD k := rfl

theorem elem_ext_bits {x y : Elem ff} (h : ∀ k, k < ff.degree → ebit k x = ebit k y) : x = y := by
  apply Elem.ext'
  apply BitVec.eq_of_getLsbD_eq
  intro k _
  by_cases hk : k < ff.degree
  · exact h k hk
  · rw [elem_bit_high _ (by omega), elem_bit_high _ (by omega)]

/-- the element with bit `t` only -/
def xpow (t : Nat) (h : t < ff.degree) : Elem ff := ⟨twoPow t, by
  rw [← bitsLt_iff]
  intro i hi
  rw [getLsbD_twoPow]
  have : t ≠ i := by omega
  simp [this]⟩

/-- the class of `X` -/
def xi : Elem ff := xpow 1 (IsField.two_le (ff := ff))

theorem toRoot_xpow (t : Nat) (h : t < ff.degree) : Elem.toRoot (xpow t h : Elem ff) = AdjoinRoot.root _ ^ t := by
  have h16 : ff.degree ≤ 16 := (Fact.out : FFOK ff).min.e16
  unfold Elem.toRoot xpow
  simp only
  rw [toPoly_twoPow t (by omega), map_pow]
  rfl

theorem toRoot_xi_pow (t : Nat) : Elem.toRoot ((xi : Elem ff) ^ t) = AdjoinRoot.root _ ^ t := by
  have h1 : Elem.toRoot (xi : Elem ff) = AdjoinRoot.root _ := by
    unfold xi; rw [toRoot_xpow, pow_one]
  induction t with
  | zero => rw [pow_zero, pow_zero, Elem.toRoot_one]
  | succ t ih => rw [pow_succ, pow_succ, Elem.toRoot_mul, ih, h1]

theorem xi_pow_small (t : Nat) (h : t < ff.degree) : (xi : Elem ff) ^ t = xpow t h :=
  Elem.toRoot_injective (by rw [toRoot_xi_pow, toRoot_xpow])

theorem xi_pow_powGen (t : Nat) (h : t < 2 * ff.degree - 1) : ((xi : Elem ff) ^ t).1 = ff.powGen t := by
  have hff : FFOK ff := Fact.out
  have h16 := hff.min.e16
  obtain ⟨h1, h2⟩ := initPowGen_spec hff.min t (by omega)
  rw [hff.pow]
  have : (xi : Elem ff) ^ t = ⟨initPowGen ff.minpoly ff.degree t, h2⟩ := by
    apply Elem.toRoot_injective
    rw [toRoot_xi_pow]
    unfold Elem.toRoot
    simp only
    rw [h1, Elem.mk_mod, map_pow]
    rfl
  rw [this]

/-- the table-driven reduction uses the powers of `X` -/
theorem gBits_eq (t k : Nat) (h : t < 2 * ff.degree - 1) : gBits (some ff) t k = ebit k ((xi : Elem ff) ^ t) := by
  have h16 : ff.degree ≤ 16 := (Fact.out : FFOK ff).min.e16
  show (if t < ff.degree then decide (k = t) else decide (k < ff.degree) && (ff.powGen t).getLsbD k) = _
  by_cases hd : t < ff.degree
  · rw [if_pos hd, xi_pow_small t hd, ebit_apply]
    show _ = (twoPow t).getLsbD k
    rw [getLsbD_twoPow]
    by_cases hk : k = t
    · subst hk
      have : k < 64 := by omega
      simp [this]
    · have : t ≠ k := fun h => hk h.symm
      simp [hk, this]
  · rw [if_neg hd, ebit_apply, xi_pow_powGen t h]
    by_cases hk : k < ff.degree
    · simp [hk]
    · rw [← xi_pow_powGen t h, elem_bit_high _ (by omega)]; simp

theorem ebit_ite (k : Nat) (b : Bool) (u : Elem ff) : ebit k (if b = true then u else 0) = b * ebit k u := by
  cases b
  · exact ((ebit (ff := ff) k).map_zero).trans (zero_mul (ebit k u)).symm
  · exact (one_mul (ebit k u)).symm

theorem elem_expand (x : Elem ff) : x = ∑ a ∈ range ff.degree, if ebit a x = true then (xi : Elem ff) ^ a else 0 := by
  apply elem_ext_bits
  intro k hk
  rw [map_sum]
  simp only [ebit_ite]
  rw [sum_eq_single k]
  · rw [← gBits_eq k k (by omega)]
    show _ = _ * (if k < ff.degree then decide (k = k) else _)
    rw [if_pos hk, decide_eq_true rfl]
    exact (mul_one _).symm
  · intro b hb hne
    rw [mem_range] at hb
    rw [← gBits_eq b k (by omega)]
    show _ * (if b < ff.degree then decide (k = b) else _) = _
    rw [if_pos hb, decide_eq_false (Ne.symm hne)]
    exact mul_zero _
  · intro h; exact absurd (mem_range.2 hk) h

/-- bits of a product -/
theorem ebit_mul (k : Nat) (x y : Elem ff) :
    ebit k (x * y) = ∑ a ∈ range ff.degree, ∑ b ∈ range ff.degree, gBits (some ff) (a + b) k * (ebit a x * ebit b y) := by
  conv_lhs => rw [elem_expand x, elem_expand y]
  rw [sum_mul_sum, map_sum]
  apply sum_congr rfl; intro a ha
  rw [map_sum]
  apply sum_congr rfl; intro b hb
  rw [mem_range] at ha hb
  rw [gBits_eq _ _ (by omega), pow_add]
  have : (if ebit a x = true then (xi : Elem ff) ^ a else 0) * (if ebit b y = true then (xi : Elem ff) ^ b else 0) =
      if (ebit a x * ebit b y) = true then (xi : Elem ff) ^ a * (xi : Elem ff) ^ b else 0 := by
    have e1 : (false : Bool) * true = false := rfl
    have e2 : (false : Bool) * false = false := rfl
    have e3 : (true : Bool) * true = true := rfl
    have e4 : (true : Bool) * false = false := rfl
    cases ebit a x <;> cases ebit b y <;> simp only [e1, e2, e3, e4, Bool.false_eq_true, if_true, if_false, mul_zero, zero_mul]
  rw [this, ebit_ite, mul_comm]

theorem targetOk (t : Nat) (h : t < 2 * ff.degree - 1) : TargetOk (some ff) t := by
  have h16 : ff.degree ≤ 16 := (Fact.out : FFOK ff).min.e16
  intro f hf
  cases hf
  exact ⟨h, by omega⟩

/-! ### multiplication -/

theorem spack_ext {S : Slice} {R : Mat ff} (h1 : S.ff = ff) (h2 : S.fid = R.fid) (h3 : S.nrows = R.nrows) (h4 : S.ncols = R.ncols)
    (h5 : S.depth = ff.degree) (h6 : ∀ k i j, bitAt (S.x k) i j = ebit k (R.e i j)) : S = R.spack := by
  have : SRep S R.e := ⟨h1, h5, h6⟩
  rw [this.eq_spack']
  rw [h2, h3, h4]

theorem addsProduct_spack (C A B : Mat ff) (hr : C.nrows = A.nrows) (hc : C.ncols = B.ncols) {X' : Nat → Nat → Nat → Word}
    (h : AddsProduct ff.degree (some ff) A.nrows A.ncols B.ncols C.spack.x A.spack.x B.spack.x X') :
    { C.spack with x := X' } = (C.addMulM A B).spack := by
  refine spack_ext rfl rfl rfl rfl rfl fun k i j => ?_
  rw [h k i j]
  simp only [spack_bit]
  show ebit k (C.e i j) + _ * (∑ a ∈ range ff.degree, ∑ b ∈ range ff.degree, gBits (some ff) (a + b) k *
    ∑ l ∈ range A.ncols, ebit a (A.e i l) * ebit b (B.e l j)) = _
  show _ = ebit k (if i < C.nrows ∧ j < C.ncols then C.e i j + ∑ k ∈ Finset.range A.ncols, A.e i k * B.e k j else C.e i j)
  rw [hr, hc]
  by_cases hij : i < A.nrows ∧ j < B.ncols
  · rw [decide_eq_true hij, if_pos hij, map_add, map_sum]
    simp only [ebit_mul]
    congr 1
    refine (one_mul _).trans ?_
    rw [sum_comm (s := range A.ncols)]
    apply sum_congr rfl; intro a _
    rw [sum_comm (s := range A.ncols)]
    apply sum_congr rfl; intro b _
    rw [mul_sum]
  · rw [decide_eq_false hij, if_neg hij]
    exact (congrArg (ebit k (C.e i j) + ·) (zero_mul _)).trans (add_zero _)

theorem sliceAddmulKara_spack (C A B : Mat ff) (hr : C.nrows = A.nrows) (hc : C.ncols = B.ncols) :
    mzdSliceAddmulKara? C.spack A.spack B.spack = some (C.addMulM A B).spack := by
  have h2 := IsField.two_le (ff := ff)
  have h16 : ff.degree ≤ 16 := (Fact.out : FFOK ff).min.e16
  obtain ⟨X', e, hX⟩ := ptrAddmulKaratsuba_spec h2 h16 (ff := some ff) (fun t ht => targetOk t ht) A.nrows A.ncols B.ncols C.spack.x
    A.spack.x B.spack.x
  unfold mzdSliceAddmulKara?
  refine (if_pos ⟨h2, h16⟩).trans ?_
  show (ptrAddmulKaratsuba? ff.degree (some ff) A.nrows A.ncols B.ncols C.spack.x A.spack.x B.spack.x).map _ = _
  rw [e, Option.map_some]
  exact congrArg some (addsProduct_spack C A B hr hc hX)

/-- a loop of additions -/
theorem forNM_bits {n : Nat} {f : Nat → (Nat → Nat → Nat → Word) → Option (Nat → Nat → Nat → Word)} {δ : Nat → Nat → Nat → Nat → Bool}
    (h : ∀ a, a < n → ∀ X, ∃ X', f a X = some X' ∧ ∀ k i j, bitAt (X' k) i j = bitAt (X k) i j + δ a k i j)
    (X : Nat → Nat → Nat → Word) :
    ∃ X', forNM f n X = some X' ∧ ∀ k i j, bitAt (X' k) i j = bitAt (X k) i j + ∑ a ∈ range n, δ a k i j := by
  induction n with
  | zero => exact ⟨X, rfl, fun k i j => by simp⟩
  | succ n ih =>
    obtain ⟨X1, e1, b1⟩ := ih fun a ha => h a (by omega)
    obtain ⟨X2, e2, b2⟩ := h n (by omega) X1
    refine ⟨X2, by rw [forNM, e1, Option.bind_some, e2], fun k i j => ?_⟩
    rw [b2, b1, sum_range_succ, add_assoc]

theorem sliceAddmulNaive_spack (C A B : Mat ff) (hr : C.nrows = A.nrows) (hc : C.ncols = B.ncols) :
    mzdSliceAddmulNaive? C.spack A.spack B.spack = some (C.addMulM A B).spack := by
  obtain ⟨X', e, hX⟩ := forNM_bits (n := ff.degree) (f := fun i x => forNM (fun j x =>
      ptrAddModred (some ff) A.nrows B.ncols (mzdMul A.nrows A.ncols B.ncols (fun _ _ => 0#64) (A.spack.x i) (B.spack.x j)) x (i + j))
      ff.degree x)
    (δ := fun a k i j => ∑ b ∈ range ff.degree, decide (i < A.nrows ∧ j < B.ncols) * (gBits (some ff) (a + b) k *
      ∑ l ∈ range A.ncols, bitAt (A.spack.x a) i l * bitAt (B.spack.x b) l j)) (by
    intro a ha X
    refine forNM_bits (δ := fun b k i j => decide (i < A.nrows ∧ j < B.ncols) * (gBits (some ff) (a + b) k *
      ∑ l ∈ range A.ncols, bitAt (A.spack.x a) i l * bitAt (B.spack.x b) l j)) ?_ X
    intro b hb X
    obtain ⟨X', e, h⟩ := ptrAddModred_bits A.nrows B.ncols (mzdMul A.nrows A.ncols B.ncols (fun _ _ => 0#64) (A.spack.x a) (B.spack.x b)) X
      (targetOk (ff := ff) (a + b) (by omega))
    refine ⟨X', e, fun k i j => ?_⟩
    rw [h]
    refine congrArg (bitAt (X k) i j + ·) ?_
    by_cases hij : i < A.nrows ∧ j < B.ncols
    · rw [mzdMul_bits _ _ _ _ _ _ hij]
      refine (mul_assoc (decide (i < A.nrows ∧ j < B.ncols)) (∑ l ∈ range A.ncols, bitAt (A.spack.x a) i l * bitAt (B.spack.x b) l j)
        (gBits (some ff) (a + b) k)).trans ?_
      rw [mul_comm (∑ l ∈ range A.ncols, bitAt (A.spack.x a) i l * bitAt (B.spack.x b) l j)]
    · rw [decide_eq_false hij]
      exact (zero_mul (gBits (some ff) (a + b) k)).trans (zero_mul _).symm) C.spack.x
  unfold mzdSliceAddmulNaive?
  refine (congrArg (Option.map _) e).trans ?_
  refine congrArg some (addsProduct_spack C A B hr hc ?_)
  intro k i j
  rw [hX]
  refine congrArg (bitAt (C.spack.x k) i j + ·) ?_
  rw [mul_sum]
  apply sum_congr rfl; intro a _
  rw [mul_sum]

/-! ### scalar multiplication -/

/-- `C + x*B` inside the matrix -/
def Mat.addScalarMul (C : Mat ff) (x : Elem ff) (B : Mat ff) : Mat ff :=
  { C with e := fun i j => if i < B.nrows ∧ j < B.ncols then C.e i j + x * B.e i j else C.e i j }

theorem sliceAddmulScalar_spack (C B : Mat ff) (x : Elem ff) (hf : C.fid = B.fid) (hr : C.nrows = B.nrows) (hc : C.ncols = B.ncols) :
    mzdSliceAddmulScalar? C.spack x.1 B.spack = some (C.addScalarMul x B).spack := by
  have h16 : ff.degree ≤ 16 := (Fact.out : FFOK ff).min.e16
  obtain ⟨X', e, hX⟩ := forNM_bits (n := ff.degree) (f := fun i X => if x.1 &&& twoPow i ≠ 0#64 then
      forNM (fun j X => ptrAddModred (some ff) B.nrows B.ncols (B.spack.x j) X (i + j)) ff.degree X else some X)
    (δ := fun a k i j => ∑ b ∈ range ff.degree, decide (i < B.nrows ∧ j < B.ncols) * (gBits (some ff) (a + b) k *
      (ebit a x * ebit b (B.e i j)))) (by
    intro a ha X
    by_cases hb : x.1.getLsbD a = true
    · simp only [if_pos ((and_twoPow x.1 a (by omega)).2 hb)]
      refine forNM_bits (δ := fun b k i j => decide (i < B.nrows ∧ j < B.ncols) * (gBits (some ff) (a + b) k *
        (ebit a x * ebit b (B.e i j)))) ?_ X
      intro b hb' X
      obtain ⟨X', e, h⟩ := ptrAddModred_bits B.nrows B.ncols (B.spack.x b) X (targetOk (ff := ff) (a + b) (by omega))
      refine ⟨X', e, fun k i j => ?_⟩
      rw [h, spack_bit, ebit_apply, hb]
      refine congrArg (bitAt (X k) i j + ·) ?_
      refine (mul_assoc (decide (i < B.nrows ∧ j < B.ncols)) ((B.e i j).1.getLsbD b) (gBits (some ff) (a + b) k)).trans ?_
      rw [mul_comm ((B.e i j).1.getLsbD b)]
      refine congrArg (fun z => decide (i < B.nrows ∧ j < B.ncols) * (gBits (some ff) (a + b) k * z)) ?_
      exact (one_mul _).symm
    · simp only [if_neg fun h => hb ((and_twoPow x.1 a (by omega)).1 h)]
      refine ⟨X, rfl, fun k i j => ?_⟩
      have hb' : ebit a x = false := by rw [ebit_apply]; simpa using hb
      rw [hb']
      have : ∀ y : Bool, false * y = 0 := fun y => zero_mul y
      simp only [this, mul_zero, sum_const_zero, add_zero]) C.spack.x
  unfold mzdSliceAddmulScalar?
  refine (if_pos ⟨hf, hr, hc⟩).trans ?_
  refine (congrArg (Option.map _) e).trans ?_
  refine congrArg some ?_
  refine spack_ext rfl rfl rfl rfl rfl fun k i j => ?_
  rw [hX, spack_bit]
  show ebit k (C.e i j) + _ = ebit k (if i < B.nrows ∧ j < B.ncols then C.e i j + x * B.e i j else C.e i j)
  by_cases hij : i < B.nrows ∧ j < B.ncols
  · rw [if_pos hij, map_add, ebit_mul, decide_eq_true hij]
    refine congrArg (ebit k (C.e i j) + ·) ?_
    apply sum_congr rfl; intro a _
    apply sum_congr rfl; intro b _
    exact one_mul _
  · rw [if_neg hij, decide_eq_false hij]
    have : ∀ y : Bool, false * y = 0 := fun y => zero_mul y
    simp only [this, sum_const_zero, add_zero]

end M4rie
