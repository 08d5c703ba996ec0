import Verif.Proofs.Gf2xDeg
import Mathlib.RingTheory.Coprime.Lemmas
import Mathlib.Algebra.Field.ZMod
import Mathlib.Algebra.Polynomial.FieldDivision

namespace M4rie
open Polynomial Spec

theorem gf2xMul?_eq (a b : Word) (d : Nat) (h1 : 1 ≤ d) (h2 : d ≤ 32) :
    gf2xMul? a b d = some (gf2xMul a b d) := by
  unfold gf2xMul? gf2xMul; simp [h1, h2]

/-- A unit polynomial over GF(2) is 1. -/
theorem poly_unit_eq_one (p : (ZMod 2)[X]) (h : IsUnit p) : p = 1 := by
  obtain ⟨r, hr, rfl⟩ := Polynomial.isUnit_iff.1 h
  have : r = 1 := by
    have h0 : r ≠ 0 := hr.ne_zero
    clear hr h; revert h0; revert r; decide
  rw [this]; simp

/-- Invariant of the extended Euclid loop after its first iteration.
`A`, `F` : the input element and the modulus, `e` : the degree bound. -/
structure InvState (A F : (ZMod 2)[X]) (e : Nat) (a b x lastx : Word) : Prop where
  cop : IsCoprime (toPoly a) (toPoly b)
  hb : b ≠ 0#64 → F ∣ (toPoly x * A - toPoly b)
  ha : F ∣ (toPoly lastx * A - toPoly a)
  dlt : (toPoly b).degree < (toPoly a).degree
  dx : b ≠ 0#64 → (toPoly x).natDegree + (toPoly a).natDegree ≤ e
  dl : b ≠ 0#64 → (toPoly lastx).natDegree + (toPoly b).natDegree ≤ e
  dl' : (toPoly lastx).natDegree < e
  da : (toPoly a).natDegree ≤ e

theorem natDegree_lt_bits (w : Word) (d : Nat) (h : (toPoly w).natDegree < d) : BitsLt w d := by
  intro i hi
  have := coeff_eq_zero_of_natDegree_lt (lt_of_lt_of_le h hi)
  rw [toPoly_coeff] at this
  by_contra hc; simp [hc] at this

theorem gf2xInvLoop_correct (A F : (ZMod 2)[X]) (e : Nat) (he1 : 1 ≤ e) (he : e ≤ 32) :
    ∀ (fuel : Nat) (a b x lastx y lasty : Word), InvState A F e a b x lastx →
      (b ≠ 0#64 → (toPoly b).natDegree + 1 ≤ fuel) →
      ∃ v, gf2xInvLoop e fuel a b x lastx y lasty = some v ∧ F ∣ (toPoly v * A - 1) ∧
        (toPoly v).natDegree < e := by
  intro fuel
  induction fuel with
  | zero =>
    intro a b x lastx y lasty inv hf
    have hb0 : b = 0#64 := by
      by_contra h; have := hf h; omega
    subst hb0
    refine ⟨lastx, by simp [gf2xInvLoop], ?_, inv.dl'⟩
    have hu : toPoly a = 1 := poly_unit_eq_one _ (by
      have := inv.cop; rw [toPoly_zero] at this; exact isCoprime_zero_right.1 this)
    have := inv.ha; rwa [hu] at this
  | succ fuel ih =>
    intro a b x lastx y lasty inv hf
    by_cases hb0 : b = 0#64
    · subst hb0
      refine ⟨lastx, by simp [gf2xInvLoop], ?_, inv.dl'⟩
      have hu : toPoly a = 1 := poly_unit_eq_one _ (by
        have := inv.cop; rw [toPoly_zero] at this; exact isCoprime_zero_right.1 this)
      have := inv.ha; rwa [hu] at this
    · rw [gf2xInvLoop]
      simp only [hb0, if_false, gf2xMul?_eq _ _ e he1 he, Option.bind_some]
      obtain ⟨hdiv, hdeg⟩ := gf2xDivmod_spec a b hb0
      have hbne : toPoly b ≠ 0 := fun h => hb0 ((toPoly_eq_zero_iff b).1 h)
      have hane : toPoly a ≠ 0 := by
        intro h; have := inv.dlt; rw [h, degree_zero] at this; exact absurd this (not_lt_bot)
      have hnd : (toPoly b).natDegree < (toPoly a).natDegree :=
        natDegree_lt_natDegree hbne inv.dlt
      set q := (gf2xDivmod a b).1 with hq
      set r := (gf2xDivmod a b).2 with hr
      have hx := inv.dx hb0
      have hl := inv.dl hb0
      have hle := inv.da
      -- degree of the quotient
      have hqdeg : (toPoly q).natDegree + (toPoly b).natDegree = (toPoly a).natDegree := by
        have hq0 : toPoly q ≠ 0 := by
          intro h0
          rw [h0, zero_mul, zero_add] at hdiv
          have h5 := inv.dlt
          rw [hdiv] at h5
          exact absurd (lt_trans h5 hdeg) (lt_irrefl _)
        rw [← natDegree_mul hq0 hbne]
        have : toPoly q * toPoly b = toPoly a - toPoly r := by rw [hdiv]; ring
        rw [this]
        apply natDegree_sub_eq_left_of_natDegree_lt
        by_cases hr0 : toPoly r = 0
        · rw [hr0]; simp; omega
        · exact lt_trans (natDegree_lt_natDegree hr0 hdeg) hnd
      -- product is exact unless b has degree 0
      apply ih
      · have hcop : IsCoprime (toPoly b) (toPoly r) := by
          have h := inv.cop
          rw [hdiv, add_comm, mul_comm] at h
          exact (IsCoprime.of_add_mul_left_left h).symm
        have hprod : r ≠ 0#64 → toPoly (gf2xMul q x e) = toPoly q * toPoly x := by
          intro hr0
          have hrne : toPoly r ≠ 0 := fun h => hr0 ((toPoly_eq_zero_iff r).1 h)
          have hrb : (toPoly r).natDegree < (toPoly b).natDegree := natDegree_lt_natDegree hrne hdeg
          apply gf2xMul_poly q x e (e+1)
          · apply natDegree_lt_bits; omega
          · apply natDegree_lt_bits; omega
          · omega
          · omega
        refine ⟨hcop, ?_, ?_, hdeg, ?_, ?_, ?_, ?_⟩
        · intro hr0
          rw [toPoly_xor, hprod hr0]
          have h1 := inv.hb hb0
          have h2 := inv.ha
          have : (toPoly lastx + toPoly q * toPoly x) * A - toPoly r
              = (toPoly lastx * A - toPoly a) + toPoly q * (toPoly x * A - toPoly b)
                + (toPoly q * toPoly b + toPoly q * toPoly b) := by
            rw [hdiv]; ring
          rw [this, CharTwo.add_self_eq_zero, add_zero]
          exact dvd_add h2 (Dvd.dvd.mul_left h1 _)
        · exact inv.hb hb0
        · intro hr0
          rw [toPoly_xor, hprod hr0]
          have h1 : (toPoly lastx + toPoly q * toPoly x).natDegree ≤ e - (toPoly b).natDegree := by
            refine le_trans (natDegree_add_le _ _) (max_le (by omega) ?_)
            refine le_trans natDegree_mul_le ?_
            omega
          omega
        · intro hr0
          have hrne : toPoly r ≠ 0 := fun h => hr0 ((toPoly_eq_zero_iff r).1 h)
          have hrb : (toPoly r).natDegree < (toPoly b).natDegree := natDegree_lt_natDegree hrne hdeg
          omega
        · omega
        · omega
      · intro hr0
        have hrne : toPoly r ≠ 0 := fun h => hr0 ((toPoly_eq_zero_iff r).1 h)
        have hrb : (toPoly r).natDegree < (toPoly b).natDegree := natDegree_lt_natDegree hrne hdeg
        have := hf hb0
        omega

theorem gf2xDivmod_small (a b : Word) (h : (toPoly a).degree < (toPoly b).degree) :
    gf2xDivmod a b = (0#64, a) := by
  have hb : b ≠ 0#64 := by
    rintro rfl; rw [toPoly_zero, degree_zero] at h; exact absurd h not_lt_bot
  obtain ⟨h1, h2⟩ := gf2xDivmod_spec a b hb
  have hq : toPoly (gf2xDivmod a b).1 = 0 := by
    by_contra hq
    have h3 : toPoly (gf2xDivmod a b).1 * toPoly b = toPoly a - toPoly (gf2xDivmod a b).2 := by
      conv_rhs => rw [h1]
      ring
    have h4 : (toPoly b).degree ≤ (toPoly (gf2xDivmod a b).1 * toPoly b).degree := by
      rw [mul_comm]; exact degree_le_mul_left _ hq
    rw [h3] at h4
    exact absurd (lt_of_le_of_lt h4 (lt_of_le_of_lt (degree_sub_le _ _) (max_lt h h2))) (lt_irrefl _)
  have hq' := (toPoly_eq_zero_iff _).1 hq
  have hr : (gf2xDivmod a b).2 = a := by
    apply toPoly_injective
    rw [hq, zero_mul, zero_add] at h1; exact h1.symm
  exact Prod.ext hq' hr

theorem gf2xMul_zero_left (x : Word) (d : Nat) (hd : d ≤ 32) : gf2xMul 0#64 x d = 0#64 := by
  have h : ∀ d, d ≤ 32 → ∀ res, gf2xMulFrom 0#64 x d res = res := by
    intro d
    induction d with
    | zero => intro _ res; rfl
    | succ d ih => intro hd res; rw [gf2xMulFrom, gf2xMulStep_eq _ _ _ (by omega), ih (by omega)]; simp
  exact h d hd _

/-- `gf2x_invmod` with any fuel ≥ 34 terminates with the modular inverse. -/
theorem gf2xInvmodFuel_spec (fuel : Nat) (hfuel : 34 ≤ fuel) (a f : Word) (e : Nat) (he1 : 1 ≤ e) (he : e ≤ 32)
    (hf : (toPoly f).natDegree = e) (ha : (toPoly a).degree < (toPoly f).degree)
    (hcop : IsCoprime (toPoly a) (toPoly f)) :
    ∃ v, gf2xInvmodFuel fuel a f e = some v ∧ toPoly f ∣ (toPoly v * toPoly a - 1) ∧
      (toPoly v).natDegree < e := by
  have hf0 : f ≠ 0#64 := by rintro rfl; simp at hf; omega
  obtain ⟨fuel, rfl⟩ : ∃ k, fuel = k + 1 := ⟨fuel - 1, by omega⟩
  unfold gf2xInvmodFuel
  rw [gf2xInvLoop]
  simp only [hf0, if_false, gf2xMul?_eq _ _ e he1 he, Option.bind_some, gf2xDivmod_small a f ha,
    gf2xMul_zero_left _ e he, BitVec.xor_zero]
  apply gf2xInvLoop_correct (toPoly a) (toPoly f) e he1 he
  · refine ⟨hcop.symm, ?_, ?_, ha, ?_, ?_, ?_, ?_⟩
    · intro _; rw [toPoly_one]; simp
    · simp
    · intro _; rw [toPoly_one]; simp [hf]
    · intro ha0
      have hane : toPoly a ≠ 0 := fun h => ha0 ((toPoly_eq_zero_iff a).1 h)
      have := natDegree_lt_natDegree hane ha
      simp; omega
    · simp; omega
    · omega
  · intro ha0
    have hane : toPoly a ≠ 0 := fun h => ha0 ((toPoly_eq_zero_iff a).1 h)
    have := natDegree_lt_natDegree hane ha
    omega

theorem gf2xInvmod_spec (a f : Word) (e : Nat) (he1 : 1 ≤ e) (he : e ≤ 32)
    (hf : (toPoly f).natDegree = e) (ha : (toPoly a).degree < (toPoly f).degree)
    (hcop : IsCoprime (toPoly a) (toPoly f)) :
    toPoly f ∣ (toPoly (gf2xInvmod a f e) * toPoly a - 1) ∧
      (toPoly (gf2xInvmod a f e)).natDegree < e := by
  obtain ⟨v, h1, h2, h3⟩ := gf2xInvmodFuel_spec 66 (by omega) a f e he1 he hf ha hcop
  unfold gf2xInvmod
  rw [h1]; exact ⟨h2, h3⟩

/-- inverse of zero: the loop stops after one iteration and returns 0 -/
theorem gf2xInvmodFuel_zero (fuel : Nat) (hfuel : 1 ≤ fuel) (f : Word) (e : Nat) (he1 : 1 ≤ e) (he : e ≤ 32)
    (hf0 : f ≠ 0#64) : gf2xInvmodFuel fuel 0#64 f e = some 0#64 := by
  obtain ⟨fuel, rfl⟩ : ∃ k, fuel = k + 1 := ⟨fuel - 1, by omega⟩
  unfold gf2xInvmodFuel
  have hlt : (toPoly (0#64)).degree < (toPoly f).degree := by
    rw [toPoly_zero, degree_zero, bot_lt_iff_ne_bot, Ne, degree_eq_bot]
    exact fun h => hf0 ((toPoly_eq_zero_iff f).1 h)
  rw [gf2xInvLoop]
  simp only [hf0, if_false, gf2xMul?_eq _ _ e he1 he, Option.bind_some, gf2xDivmod_small _ f hlt]
  rw [gf2xInvLoop.eq_def]; simp

end M4rie
