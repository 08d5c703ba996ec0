import Verif.Spec.Poly
import Verif.Model.Gf2x
import Mathlib.Algebra.CharP.Two

namespace M4rie
open Polynomial Spec

theorem toPoly_coeff {n : Nat} (w : BitVec n) (i : Nat) :
    (toPoly w).coeff i = if w.getLsbD i then 1 else 0 := by
  unfold toPoly
  rw [finsetSum_coeff]
  have h : ∀ j ∈ Finset.range n, (if w.getLsbD j = true then (X : (ZMod 2)[X]) ^ j else 0).coeff i
      = if j = i then (if w.getLsbD i then 1 else 0) else 0 := by
    intro j _
    by_cases hj : w.getLsbD j
    · by_cases hji : j = i
      · subst hji; simp [hj]
      · simp [hj, coeff_X_pow, hji, Ne.symm hji]
    · by_cases hji : j = i
      · subst hji; simp [hj]
      · simp [hj, hji]
  rw [Finset.sum_congr rfl h, Finset.sum_ite_eq']
  by_cases hi : i < n
  · simp [hi]
  · have : w.getLsbD i = false := BitVec.getLsbD_of_ge w i (by omega)
    simp [this]

theorem toPoly_injective {n : Nat} : Function.Injective (toPoly (n := n)) := by
  intro a b h
  apply BitVec.eq_of_getLsbD_eq
  intro i _
  have := congrArg (fun p => p.coeff i) h
  simp only [toPoly_coeff] at this
  cases ha : a.getLsbD i <;> cases hb : b.getLsbD i <;> simp [ha, hb] at this ⊢

@[simp] theorem toPoly_zero {n : Nat} : toPoly (0#n) = 0 := by
  ext i; simp [toPoly_coeff]

theorem toPoly_eq_zero_iff {n : Nat} (w : BitVec n) : toPoly w = 0 ↔ w = 0#n :=
  ⟨fun h => toPoly_injective (h.trans toPoly_zero.symm), fun h => by rw [h, toPoly_zero]⟩

@[simp] theorem toPoly_xor {n : Nat} (a b : BitVec n) :
    toPoly (a ^^^ b) = toPoly a + toPoly b := by
  ext i
  simp only [coeff_add, toPoly_coeff, BitVec.getLsbD_xor]
  cases a.getLsbD i <;> cases b.getLsbD i <;> simp
  decide

/-- bits at positions `≥ d` are all zero -/
def BitsLt {n : Nat} (w : BitVec n) (d : Nat) : Prop := ∀ i, d ≤ i → w.getLsbD i = false

theorem bitsLt_iff {n : Nat} (w : BitVec n) (d : Nat) : BitsLt w d ↔ w.toNat < 2 ^ d := by
  unfold BitsLt
  constructor
  · intro h
    apply Nat.lt_pow_two_of_testBit
    intro i hi
    have := h i hi
    simpa [BitVec.getLsbD] using this
  · intro h i hi
    simp only [BitVec.getLsbD]
    exact Nat.testBit_lt_two_pow (lt_of_lt_of_le h (Nat.pow_le_pow_right (by norm_num) hi))

theorem degree_toPoly_lt_iff {n : Nat} (w : BitVec n) (d : Nat) :
    (toPoly w).degree < d ↔ BitsLt w d := by
  rw [degree_lt_iff_coeff_zero]
  constructor
  · intro h i hi
    have := h i (by exact_mod_cast hi)
    rw [toPoly_coeff] at this
    by_contra hc
    simp [hc] at this
  · intro h i hi
    rw [toPoly_coeff, h i (by exact_mod_cast hi)]; simp

theorem degree_toPoly_lt_iff' {n : Nat} (w : BitVec n) (d : Nat) :
    (toPoly w).degree < d ↔ w.toNat < 2 ^ d := by
  rw [degree_toPoly_lt_iff, bitsLt_iff]

theorem toPoly_shiftLeft (b : Word) (i d : Nat) (hb : BitsLt b d) (h : d + i ≤ 64) :
    toPoly (b <<< i) = toPoly b * X ^ i := by
  ext j
  rw [coeff_mul_X_pow', toPoly_coeff, toPoly_coeff, BitVec.getLsbD_shiftLeft]
  by_cases hij : i ≤ j
  · by_cases hj : j < 64
    · have h2 : ¬ (j < i) := by omega
      simp [hij, hj, h2]
    · have : b.getLsbD (j - i) = false := hb _ (by omega)
      simp [hj, this]
  · have : j < i := by omega
    simp [hij, this]

theorem oneToF_eq (x : Word) (h : x.toNat < 2) :
    oneToF x = if x = 1#64 then BitVec.allOnes 64 else 0#64 := by
  have : x = 0#64 ∨ x = 1#64 := by
    have h2 : x.toNat = 0 ∨ x.toNat = 1 := by omega
    rcases h2 with h2 | h2
    · left; apply BitVec.eq_of_toNat_eq; simpa using h2
    · right; apply BitVec.eq_of_toNat_eq; simpa using h2
  rcases this with rfl | rfl <;> decide

theorem mask_and (x b : Word) (h : x.toNat < 2) :
    oneToF x &&& b = if x.getLsbD 0 then b else 0#64 := by
  rw [oneToF_eq x h]
  have : x = 0#64 ∨ x = 1#64 := by
    have h2 : x.toNat = 0 ∨ x.toNat = 1 := by omega
    rcases h2 with h2 | h2
    · left; apply BitVec.eq_of_toNat_eq; simpa using h2
    · right; apply BitVec.eq_of_toNat_eq; simpa using h2
  rcases this with rfl | rfl
  · simp
  · show BitVec.allOnes 64 &&& b = b
    exact BitVec.allOnes_and

theorem getLsbD_twoPow (i j : Nat) : (twoPow i).getLsbD j = (decide (j < 64) && decide (i = j)) := by
  unfold twoPow
  rw [BitVec.getLsbD_shiftLeft]
  by_cases h : j < 64
  · by_cases h2 : j < i
    · have : i ≠ j := by omega
      simp [h2, this]
    · by_cases h3 : i = j
      · subst h3; simp [h]
      · have h4 : j - i ≠ 0 := by omega
        have : BitVec.getLsbD (1#64) (j-i) = false := by
          rw [BitVec.getLsbD_one]; simp [h4]
        simp [h3, this]
  · simp [h]

theorem bit_extract (a : Word) (i : Nat) (hi : i < 64) :
    (((a &&& twoPow i) >>> i).toNat < 2) ∧ ((a &&& twoPow i) >>> i).getLsbD 0 = a.getLsbD i := by
  constructor
  · have : BitsLt ((a &&& twoPow i) >>> i) 1 := by
      intro j hj
      rw [BitVec.getLsbD_ushiftRight, BitVec.getLsbD_and, getLsbD_twoPow]
      have h0 : j ≠ 0 := by omega
      simp [h0]
    simpa using (bitsLt_iff _ _).1 this
  · rw [BitVec.getLsbD_ushiftRight, BitVec.getLsbD_and, getLsbD_twoPow]
    simp [hi]

theorem gf2xMulStep_eq (a b : Word) (i : Nat) (hi : i < 64) (res : Word) :
    gf2xMulStep a b i res = res ^^^ (if a.getLsbD i then b <<< i else 0#64) := by
  unfold gf2xMulStep
  obtain ⟨h1, h2⟩ := bit_extract a i hi
  rw [mask_and _ _ h1, h2]

/-- truncated polynomial: low `d` coefficients -/
noncomputable def lowPoly (a : Word) (d : Nat) : (ZMod 2)[X] :=
  ∑ i ∈ Finset.range d, if a.getLsbD i then X ^ i else 0

theorem gf2xMulFrom_poly (a b : Word) (db : Nat) (hb : BitsLt b db) :
    ∀ (d : Nat) (res : Word), d + db ≤ 65 → d ≤ 64 →
      toPoly (gf2xMulFrom a b d res) = toPoly res + lowPoly a d * toPoly b := by
  intro d
  induction d with
  | zero => intro res _ _; simp [gf2xMulFrom, lowPoly]
  | succ d ih =>
    intro res h h64
    rw [gf2xMulFrom, ih _ (by omega) (by omega), gf2xMulStep_eq a b d (by omega), toPoly_xor]
    have : lowPoly a (d+1) = lowPoly a d + (if a.getLsbD d then X ^ d else 0) := by
      unfold lowPoly; rw [Finset.sum_range_succ]
    rw [this, add_mul]
    by_cases hc : a.getLsbD d
    · simp only [hc, if_true]
      rw [toPoly_shiftLeft b d db hb (by omega)]
      ring
    · simp only [hc]
      simp

theorem lowPoly_eq (a : Word) (d : Nat) (h : BitsLt a d) : lowPoly a d = toPoly a := by
  ext i
  rw [toPoly_coeff]
  unfold lowPoly
  rw [finsetSum_coeff]
  have h : ∀ j ∈ Finset.range d, (if a.getLsbD j = true then (X : (ZMod 2)[X]) ^ j else 0).coeff i
      = if j = i then (if a.getLsbD i then 1 else 0) else 0 := by
    intro j _
    by_cases hj : a.getLsbD j
    · by_cases hji : j = i
      · subst hji; simp [hj]
      · simp [hj, coeff_X_pow, hji, Ne.symm hji]
    · by_cases hji : j = i
      · subst hji; simp [hj]
      · simp [hj, hji]
  rw [Finset.sum_congr rfl h, Finset.sum_ite_eq']
  by_cases hi : i < d
  · simp [hi]
  · simp [hi, ‹BitsLt a d› i (by omega)]

theorem gf2xMul_poly (a b : Word) (d db : Nat) (ha : BitsLt a d) (hb : BitsLt b db)
    (h : d + db ≤ 65) (h64 : d ≤ 64) :
    toPoly (gf2xMul a b d) = toPoly a * toPoly b := by
  unfold gf2xMul
  rw [gf2xMulFrom_poly a b db hb d 0#64 h h64, lowPoly_eq a d ha]; simp

theorem toPoly_one : toPoly (1#64) = 1 := by
  ext i
  rw [toPoly_coeff, BitVec.getLsbD_one, coeff_one]
  by_cases h : i = 0 <;> simp [h]

theorem toPoly_twoPow (i : Nat) (h : i < 64) : toPoly (twoPow i) = X ^ i := by
  ext j
  rw [toPoly_coeff, getLsbD_twoPow, coeff_X_pow]
  by_cases h2 : i = j
  · subst h2; simp [h]
  · simp [h2, Ne.symm h2]

end M4rie
