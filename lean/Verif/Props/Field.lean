import Verif.Proofs.Gf2eField

/-!
# Properties C01-C08, C10: polynomial arithmetic and finite fields

Specification vocabulary: `Spec.toPoly w : (ZMod 2)[X]` is the polynomial encoded by a word;
`%`, `∣`, `Irreducible`, `AdjoinRoot` are Mathlib's.
-/

namespace M4rie.Props
open Polynomial M4rie.Spec

/-- **C01** `gf2x_mul(a,b,d)` is the carry-less product whenever `deg a < d` and the product
fits into 64 bits (`deg b < db`, `d + db ≤ 65`). -/
theorem C01_gf2x_mul (a b : Word) (d db : Nat) (hd : 1 ≤ d) (hd32 : d ≤ 32)
    (ha : a.toNat < 2 ^ d) (hb : b.toNat < 2 ^ db) (hfit : d + db ≤ 65) :
    ∃ r, gf2xMul? a b d = some r ∧ toPoly r = toPoly a * toPoly b :=
  ⟨_, gf2xMul?_eq a b d hd hd32,
    gf2xMul_poly a b d db ((bitsLt_iff _ _).2 ha) ((bitsLt_iff _ _).2 hb) hfit (by omega)⟩

/-- **C01** outside `1 ≤ d ≤ 32` the routine dies. -/
theorem C01_gf2x_mul_dies (a b : Word) (d : Nat) (h : d = 0 ∨ 32 < d) : gf2xMul? a b d = none := by
  unfold gf2xMul?
  rw [if_neg]; omega

-- non-vacuity: (X^3+X+1)*(X^31+1) with d = 4, db = 32
example : (0xb#64).toNat < 2 ^ 4 ∧ (0x80000001#64).toNat < 2 ^ 32 ∧
    gf2xMul? 0xb#64 0x80000001#64 4 = some 0x58000000b#64 := by decide

/-- **C02** `gf2x_deg` is the degree (`natDegree`, i.e. 0 for the zero polynomial). -/
theorem C02_gf2x_deg (a : Word) : gf2xDeg a = (toPoly a).natDegree := gf2xDeg_natDegree a

/-- **C02** in terms of bits: the top set bit. -/
theorem C02_gf2x_deg_bits (a : Word) (h : a ≠ 0#64) :
    a.getLsbD (gf2xDeg a) = true ∧ ∀ i, gf2xDeg a < i → a.getLsbD i = false :=
  ⟨gf2xDeg_top a h, fun i hi => gf2xDeg_bits a i hi⟩

example : gf2xDeg 0x8000000000000001#64 = 63 ∧ gf2xDeg 0#64 = 0 ∧ gf2xDeg 0x1ffff#64 = 16 := by decide

/-- **C03** Euclidean division for every non-zero divisor. -/
theorem C03_gf2x_divmod (a b : Word) (hb : b ≠ 0#64) :
    toPoly a = toPoly (gf2xDivmod a b).1 * toPoly b + toPoly (gf2xDivmod a b).2 ∧
    (toPoly (gf2xDivmod a b).2).degree < (toPoly b).degree := gf2xDivmod_spec a b hb

/-- **C03** the three routines agree with the polynomial quotient and remainder. -/
theorem C03_gf2x_div_mod (a b : Word) (hb : b ≠ 0#64) :
    toPoly (gf2xDiv a b) = toPoly a / toPoly b ∧ toPoly (gf2xMod a b) = toPoly a % toPoly b ∧
    gf2xDivmod a b = (gf2xDiv a b, gf2xMod a b) := by
  obtain ⟨h1, h2⟩ := gf2xDivmod_spec a b hb
  have hbne : toPoly b ≠ 0 := fun h => hb ((toPoly_eq_zero_iff b).1 h)
  have hmod : toPoly a % toPoly b = toPoly (gf2xDivmod a b).2 := by
    apply mod_eq_of h2
    refine ⟨toPoly (gf2xDivmod a b).1, ?_⟩
    conv_lhs => rw [h1]
    ring
  refine ⟨?_, ?_, ?_⟩
  · rw [gf2xDiv_eq]
    have h3 := EuclideanDomain.div_add_mod (toPoly a) (toPoly b)
    rw [hmod] at h3
    have h4 : toPoly b * toPoly (gf2xDivmod a b).1 = toPoly b * (toPoly a / toPoly b) := by
      have : toPoly b * (toPoly a / toPoly b) = toPoly a - toPoly (gf2xDivmod a b).2 := by
        linear_combination h3
      rw [this]
      conv_rhs => rw [h1]
      ring
    exact mul_left_cancel₀ hbne h4
  · rw [gf2xMod_eq, hmod]
  · rw [gf2xMod_eq, gf2xDiv_eq]

example : gf2xDivmod 0x8000000000000003#64 0x11b#64 =
    (gf2xDiv 0x8000000000000003#64 0x11b#64, gf2xMod 0x8000000000000003#64 0x11b#64) ∧
    gf2xMod 0x53ca#64 0x11b#64 ≠ 0#64 := by decide

/-- A minimal polynomial accepted by the library: degree between 1 and `M4RIE_MAX_DEGREE`. -/
def SupportedMinpoly (f : Word) : Prop :=
  1 ≤ (toPoly f).natDegree ∧ (toPoly f).natDegree ≤ 16

theorem SupportedMinpoly.minOK {f : Word} (h : SupportedMinpoly f) : MinOK f (toPoly f).natDegree :=
  ⟨rfl, h.1, h.2⟩

/-- A field object produced by `gf2e_init` satisfies the internal invariant used by the proofs. -/
theorem ffok_of_init {f : Word} {ff : Gf2e} (h : SupportedMinpoly f) (hi : gf2eInit f = some ff) :
    FFOK ff ∧ ff.minpoly = f ∧ ff.degree = (toPoly f).natDegree := by
  obtain ⟨ff', h1, h2, h3, h4⟩ := gf2eInit_ok h.minOK
  rw [hi] at h1
  cases h1
  exact ⟨h4, h3, h2⟩

/-- Convenient criterion used in the examples. -/
theorem supported_of_deg {f : Word} (h1 : 1 ≤ gf2xDeg f) (h2 : gf2xDeg f ≤ 16) : SupportedMinpoly f := by
  unfold SupportedMinpoly; rw [← gf2xDeg_natDegree]; exact ⟨h1, h2⟩

/-- **C05** `gf2e_init` never fails its assertion and never leaves its tables, and `red[t]` is
the unique multiple of the minimal polynomial of degree `< 2e` whose high part is `t`. -/
theorem C05_red_table (f : Word) (hf : SupportedMinpoly f) :
    ∃ ff, gf2eInit f = some ff ∧ ff.degree = (toPoly f).natDegree ∧ ff.minpoly = f ∧
      ∀ t, t < 2 ^ ff.degree →
        (toPoly f ∣ toPoly (ff.red t) ∧ (ff.red t).toNat < 2 ^ (2 * ff.degree) ∧
          (ff.red t).toNat / 2 ^ ff.degree = t) ∧
        ∀ m : Word, toPoly f ∣ toPoly m → m.toNat / 2 ^ ff.degree = t → m = ff.red t := by
  obtain ⟨ff, h1, h2, h3, h4⟩ := gf2eInit_ok hf.minOK
  refine ⟨ff, h1, h2, h3, ?_⟩
  intro t ht
  have hh := h4.red_high t ht
  have hh' : (ff.red t).toNat / 2 ^ ff.degree = t := by
    rw [← Nat.shiftRight_eq_div_pow, ← BitVec.toNat_ushiftRight]; exact hh
  refine ⟨⟨by rw [← h3]; exact h4.red_dvd t ht, h4.red_bits t ht, hh'⟩, ?_⟩
  intro m hm hmt
  apply multiple_unique h4.min
  · rw [h3]; exact hm
  · exact h4.red_dvd t ht
  · apply BitVec.eq_of_toNat_eq
    rw [hh, BitVec.toNat_ushiftRight, Nat.shiftRight_eq_div_pow, hmt]

-- the AES polynomial, the largest supported degree, and a reducible polynomial are all supported
example : SupportedMinpoly 0x11b#64 := supported_of_deg (by decide) (by decide)
example : SupportedMinpoly 0x1002d#64 := supported_of_deg (by decide) (by decide)
example : SupportedMinpoly 0x5#64 := supported_of_deg (by decide) (by decide)

/-- **C06** `pow_gen[i]` is `X^i` reduced modulo the minimal polynomial. -/
theorem C06_pow_gen (f : Word) (hf : SupportedMinpoly f) (ff : Gf2e) (hi : gf2eInit f = some ff)
    (i : Nat) (hlt : i < 2 * ff.degree - 1) :
    toPoly (ff.powGen i) = X ^ i % toPoly f ∧ (ff.powGen i).toNat < 2 ^ ff.degree := by
  obtain ⟨h, h2, h3⟩ := ffok_of_init hf hi
  have h16 := h.min.e16
  rw [h.pow, ← h2]
  exact initPowGen_spec h.min i (by omega)

/-- **C07** `gf2e_mul` never reads outside its tables, returns a reduced element and computes the
product modulo the minimal polynomial. -/
theorem C07_gf2e_mul (f : Word) (hf : SupportedMinpoly f) (ff : Gf2e) (hi : gf2eInit f = some ff)
    (a b : Word) (ha : a.toNat < 2 ^ ff.degree) (hb : b.toNat < 2 ^ ff.degree) :
    ∃ r, gf2eMul? ff a b = some r ∧ r.toNat < 2 ^ ff.degree ∧
      toPoly r = (toPoly a * toPoly b) % toPoly f := by
  obtain ⟨h, h2, h3⟩ := ffok_of_init hf hi
  rw [← h2]
  exact ⟨_, gf2eMul_spec h a b ha hb⟩

/-- **C07** the table lookup (used for `e ≤ 8`) and the arithmetic routine agree on all elements. -/
theorem C07_table_eq_arith (f : Word) (hf : SupportedMinpoly f) (ff : Gf2e) (hi : gf2eInit f = some ff)
    (t : Nat → Nat → Word) (ht : ff.mulTab = some t) (a b : Word)
    (ha : a.toNat < 2 ^ ff.degree) (hb : b.toNat < 2 ^ ff.degree) :
    gf2eMulTable? ff t a b = gf2eMulArith? ff a b := by
  obtain ⟨h, _, _⟩ := ffok_of_init hf hi
  have := gf2eMul?_eq_arith h a b ha hb
  unfold gf2eMul? at this
  rw [ht] at this
  exact this

/-- **C07** a table exists exactly for degrees up to 8. -/
theorem C07_table_iff (f : Word) (hf : SupportedMinpoly f) (ff : Gf2e) (hi : gf2eInit f = some ff) :
    ff.mulTab.isSome ↔ ff.degree ≤ 8 := by
  obtain ⟨h, _, _⟩ := ffok_of_init hf hi
  rw [h.tab]; split <;> simp_all

-- 0x53 * 0xca = 1 in the AES field; 0x53 and 0xca are elements
example : ((gf2eInit 0x11b#64).bind fun ff => gf2eMul? ff 0x53#64 0xca#64) = some 0x1#64 := by
  decide +kernel

/-- **C04** inversion: the Euclidean loop terminates (any fuel ≥ 34 gives the same answer), the
result is an element, and it is the multiplicative inverse under `gf2e_mul`. -/
theorem C04_gf2e_inv (f : Word) (hf : SupportedMinpoly f) (hirr : Irreducible (toPoly f))
    (ff : Gf2e) (hi : gf2eInit f = some ff) (a : Word) (ha : a.toNat < 2 ^ ff.degree)
    (ha0 : a ≠ 0#64) :
    (∀ fuel, 34 ≤ fuel → gf2xInvmodFuel fuel a f ff.degree = some (gf2eInv ff a)) ∧
    (gf2eInv ff a).toNat < 2 ^ ff.degree ∧
    gf2eMul? ff a (gf2eInv ff a) = some 1#64 := by
  obtain ⟨h, h2, h3⟩ := ffok_of_init hf hi
  have : Fact (FFOK ff) := ⟨h⟩
  have : Fact (Irreducible (toPoly ff.minpoly)) := ⟨by rw [h2]; exact hirr⟩
  obtain ⟨hlt, _⟩ := Elem.gf2eInv_lt (ff := ff) a ha
  refine ⟨?_, hlt, ?_⟩
  · intro fuel hfuel
    have hd : (toPoly a).degree < (toPoly ff.minpoly).degree := by
      rw [h.min.degree]; exact (degree_toPoly_lt_iff' _ _).2 ha
    have hcop : IsCoprime (toPoly a) (toPoly ff.minpoly) := by
      have hirr' : Irreducible (toPoly ff.minpoly) := by rw [h2]; exact hirr
      refine ((hirr'.coprime_iff_not_dvd).2 ?_).symm
      intro hdvd
      exact ha0 ((toPoly_eq_zero_iff a).1 (Polynomial.eq_zero_of_dvd_of_degree_lt hdvd hd))
    obtain ⟨v, e1, e2, e3⟩ := gf2xInvmodFuel_spec fuel hfuel a ff.minpoly ff.degree h.min.e1
      (by have := h.min.e16; omega) h.min.deg hd hcop
    obtain ⟨g1, g2⟩ := gf2xInvmod_spec a ff.minpoly ff.degree h.min.e1
      (by have := h.min.e16; omega) h.min.deg hd hcop
    rw [← h2, e1]
    congr 1
    apply toPoly_injective
    have hsub : toPoly ff.minpoly ∣ toPoly v - toPoly (gf2eInv ff a) := by
      have hd2 : toPoly ff.minpoly ∣ toPoly a * (toPoly v - toPoly (gf2eInv ff a)) := by
        have := dvd_sub e2 g1
        have e : toPoly v * toPoly a - 1 - (toPoly (gf2xInvmod a ff.minpoly ff.degree) * toPoly a - 1)
          = toPoly a * (toPoly v - toPoly (gf2eInv ff a)) := by unfold gf2eInv; ring
        rwa [e] at this
      exact hcop.symm.dvd_of_dvd_mul_left hd2
    have hz := Polynomial.eq_zero_of_dvd_of_degree_lt hsub (by
      rw [h.min.degree]
      refine lt_of_le_of_lt (degree_sub_le _ _) (max_lt ?_ ((degree_toPoly_lt_iff' _ _).2 hlt))
      rw [degree_toPoly_lt_iff]; exact natDegree_lt_bits _ _ e3)
    exact sub_eq_zero.1 hz
  · have := Elem.mul_inv (ff := ff) ⟨a, ha⟩ (fun h' => ha0 (congrArg Subtype.val h'))
    have h4 := congrArg Subtype.val this
    rw [(gf2eMul_spec h a _ ha hlt).1]
    exact congrArg some h4

/-- **C04** `gf2e_inv(0) = 0`. -/
theorem C04_gf2e_inv_zero (f : Word) (hf : SupportedMinpoly f) (ff : Gf2e) (hi : gf2eInit f = some ff) :
    gf2eInv ff 0#64 = 0#64 := by
  obtain ⟨h, h2, h3⟩ := ffok_of_init hf hi
  unfold gf2eInv gf2xInvmod
  rw [gf2xInvmodFuel_zero 66 (by omega) _ _ h.min.e1 (by have := h.min.e16; omega)
    (fun h' => h.min.ne0 ((toPoly_eq_zero_iff _).2 h'))]
  rfl

/-- **C08** the e-bit words with XOR, `gf2e_mul`, `gf2e_inv` form a field of characteristic 2
(stated by its axioms, on raw words). -/
theorem C08_field_axioms (f : Word) (hf : SupportedMinpoly f) (hirr : Irreducible (toPoly f))
    (ff : Gf2e) (hi : gf2eInit f = some ff) (a b c : Word)
    (ha : a.toNat < 2 ^ ff.degree) (hb : b.toNat < 2 ^ ff.degree) (hc : c.toNat < 2 ^ ff.degree) :
    (a ^^^ b).toNat < 2 ^ ff.degree ∧ (gf2eMul ff a b).toNat < 2 ^ ff.degree ∧
    gf2eMul ff a (gf2eMul ff b c) = gf2eMul ff (gf2eMul ff a b) c ∧
    gf2eMul ff a b = gf2eMul ff b a ∧
    gf2eMul ff 1#64 a = a ∧
    gf2eMul ff 0#64 a = 0#64 ∧
    gf2eMul ff a (b ^^^ c) = gf2eMul ff a b ^^^ gf2eMul ff a c ∧
    (a ≠ 0#64 → gf2eMul ff a (gf2eInv ff a) = 1#64) ∧
    (gf2eMul ff a b = 0#64 → a = 0#64 ∨ b = 0#64) := by
  obtain ⟨h, h2, h3⟩ := ffok_of_init hf hi
  have : Fact (FFOK ff) := ⟨h⟩
  have : Fact (Irreducible (toPoly ff.minpoly)) := ⟨by rw [h2]; exact hirr⟩
  let A : Elem ff := ⟨a, ha⟩
  let B : Elem ff := ⟨b, hb⟩
  let C : Elem ff := ⟨c, hc⟩
  refine ⟨Elem.xor_lt ha hb, (A * B).2, ?_, ?_, ?_, ?_, ?_, ?_, ?_⟩
  · exact congrArg Subtype.val (mul_assoc A B C).symm
  · exact congrArg Subtype.val (mul_comm A B)
  · exact congrArg Subtype.val (one_mul A)
  · exact congrArg Subtype.val (zero_mul A)
  · exact congrArg Subtype.val (mul_add A B C)
  · intro h0
    exact congrArg Subtype.val (Elem.mul_inv A (fun h' => h0 (congrArg Subtype.val h')))
  · intro h0
    have : A * B = 0 := Elem.ext' h0
    rcases mul_eq_zero.1 this with h5 | h5
    · left; exact congrArg Subtype.val h5
    · right; exact congrArg Subtype.val h5

/-- **C08** the field is GF(2)[X]/(minpoly): there is a ring isomorphism sending a stored word to
the class of the polynomial it encodes. -/
theorem C08_iso_quotient (ff : Gf2e) [Fact (FFOK ff)] :
    ∃ φ : Elem ff ≃+* AdjoinRoot (toPoly ff.minpoly),
      ∀ a, φ a = AdjoinRoot.mk (toPoly ff.minpoly) (toPoly a.1) :=
  ⟨Elem.ringEquiv, fun _ => rfl⟩

/-- **C10** storage width: for every supported degree the width is one of 2,4,8,16, holds an
element, is less than twice the degree (for degree > 2), and divides 64. -/
theorem C10_degree_to_w (e w : Nat) (h : degreeToW? e = some w) :
    2 ≤ e ∧ e ≤ 16 ∧ e ≤ w ∧ (w = 2 ∨ w = 4 ∨ w = 8 ∨ w = 16) ∧ w < 2 * e ∧ w ∣ 64 := by
  unfold degreeToW? at h
  split at h <;> first | (cases h; done) | (cases h; decide)

/-- **C10** it dies exactly for degrees outside 2..16. -/
theorem C10_degree_to_w_dies (e : Nat) : degreeToW? e = none ↔ (e < 2 ∨ 16 < e) := by
  unfold degreeToW?
  split <;> simp_all <;> omega

/-- **C10** an element stored at column `j` never straddles two words. -/
theorem C10_no_straddle (e w j : Nat) (h : degreeToW? e = some w) :
    (j * w) / 64 = (j * w + (w - 1)) / 64 := by
  obtain ⟨_, _, _, hw, _, _⟩ := C10_degree_to_w e w h
  rcases hw with rfl | rfl | rfl | rfl <;> omega

end M4rie.Props
