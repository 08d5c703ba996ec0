import Verif.Proofs.BlmApply
import Verif.Proofs.Gf2eInit

/-! The matrix of the reduction modulo a polynomial: `_crt_modred_mat`. -/

namespace M4rie
open Polynomial Spec

theorem gf2_eq_zero {b : Bool} : gf2 b = 0 ↔ b = false := by cases b <;> simp [gf2]
theorem gf2_inj {a b : Bool} (h : gf2 a = gf2 b) : a = b := by revert h; cases a <;> cases b <;> simp [gf2]
theorem gf2_xor (a b : Bool) : gf2 (a.xor b) = gf2 a + gf2 b := gf2Hom.map_add a b
theorem gf2_coeff (w : Word) (i : Nat) : gf2 (w.getLsbD i) = (toPoly w).coeff i := by rw [toPoly_coeff]; rfl

theorem bitAt_xorRange (M : Nat → Nat → Word) (x y n : Nat) (v : Word) (i p : Nat) :
    bitAt (mzdXorRange M x y n v) i p = if i = x ∧ y ≤ p ∧ p < y + n then (bitAt M i p).xor (v.getLsbD (p - y)) else bitAt M i p := by
  unfold mzdXorRange; rw [bitAt_ofBits]

theorem bitAt_writeBit (M : Nat → Nat → Word) (r c : Nat) (v : Bool) (i p : Nat) :
    bitAt (mzdWriteBit M r c v) i p = if i = r ∧ p = c then v else bitAt M i p := by
  unfold mzdWriteBit; rw [bitAt_ofBits]

/-- row 0 of `f` holds the coefficients of `P` -/
def RowIs (f : Nat → Nat → Word) (P : (ZMod 2)[X]) : Prop := ∀ c, gf2Entry f 0 c = P.coeff c

theorem rowTop_spec (f : Nat → Nat → Word) (w : Nat) : (∀ p, p < 64 * w → rowTop w (f 0) < p → bitAt f 0 p = false) ∧
    ((∃ p, p < 64 * w ∧ bitAt f 0 p = true) → bitAt f 0 (rowTop w (f 0)) = true) ∧
    ((∀ p, p < 64 * w → bitAt f 0 p = false) → rowTop w (f 0) = 0) := by
  induction w with
  | zero =>
    refine ⟨fun p hp => by omega, ?_, fun _ => rfl⟩
    rintro ⟨p, hp, _⟩; omega
  | succ w ih =>
    obtain ⟨h1, h2, h3⟩ := ih
    rw [rowTop]
    by_cases hz : f 0 w = 0#64
    · have hzb : ∀ p, 64 * w ≤ p → p < 64 * (w + 1) → bitAt f 0 p = false := by
        intro p hp1 hp2
        unfold bitAt
        rw [show p / 64 = w by omega, hz]; simp
      rw [if_neg (not_not.2 hz)]
      refine ⟨fun p hp hlt => ?_, ?_, fun h => h3 fun p hp => h p (by omega)⟩
      · by_cases hpw : p < 64 * w
        · exact h1 p hpw hlt
        · exact hzb p (by omega) hp
      · rintro ⟨p, hp, hb⟩
        by_cases hpw : p < 64 * w
        · exact h2 ⟨p, hpw, hb⟩
        · rw [hzb p (by omega) hp] at hb; cases hb
    · rw [if_pos hz]
      have hlt := gf2xDeg_lt (f 0 w)
      have hb : bitAt f 0 (gf2xDeg (f 0 w) + 64 * w) = true := by
        unfold bitAt
        rw [show (gf2xDeg (f 0 w) + 64 * w) / 64 = w by omega, show (gf2xDeg (f 0 w) + 64 * w) % 64 = gf2xDeg (f 0 w) by omega]
        exact gf2xDeg_top _ hz
      refine ⟨fun p hp hlt' => ?_, fun _ => hb, fun h => ?_⟩
      · unfold bitAt
        rw [show p / 64 = w by omega]
        exact gf2xDeg_bits (f 0 w) _ (by omega)
      · rw [h _ (by omega)] at hb; cases hb

theorem rowTop_natDegree {f : Nat → Nat → Word} {P : (ZMod 2)[X]} (h : RowIs f P) {w : Nat} (hd : P.degree < ((64 * w : ℕ) : WithBot ℕ)) :
    rowTop w (f 0) = P.natDegree := by
  obtain ⟨h1, h2, h3⟩ := rowTop_spec f w
  by_cases hP : P = 0
  · rw [hP, natDegree_zero]
    apply h3
    intro p _
    have := h p
    rw [hP, coeff_zero] at this
    exact gf2_eq_zero.1 this
  · have hlead : bitAt f 0 P.natDegree = true := by
      by_contra hb
      rw [Bool.not_eq_true] at hb
      have := h P.natDegree
      rw [show gf2Entry f 0 P.natDegree = 0 from gf2_eq_zero.2 hb] at this
      exact hP (leadingCoeff_eq_zero.1 this.symm)
    have hlt : P.natDegree < 64 * w := by rw [degree_eq_natDegree hP] at hd; exact_mod_cast hd
    have ht := h2 ⟨_, hlt, hlead⟩
    apply le_antisymm
    · apply le_natDegree_of_ne_zero
      rw [← h]
      show gf2 _ ≠ 0
      rw [ht]; decide
    · by_contra hc
      have := h1 _ hlt (by omega)
      rw [hlead] at this; cases this

theorem modredLoop_spec {poly : Word} {d length : Nat} (hm : MinOK poly d) : ∀ (fuel : Nat) (f : Nat → Nat → Word) (P : (ZMod 2)[X]),
    RowIs f P → P.degree < (length : WithBot ℕ) → P.natDegree < fuel + d →
    ∃ f', modredLoop length poly d fuel f P.natDegree = some (f', (P % toPoly poly).natDegree) ∧ RowIs f' (P % toPoly poly) := by
  intro fuel
  induction fuel with
  | zero =>
    intro f P hf hl hd
    have : P % toPoly poly = P := (Polynomial.mod_eq_self_iff hm.ne0).2 (by
      rw [hm.degree]
      exact lt_of_le_of_lt degree_le_natDegree (by exact_mod_cast (by omega : P.natDegree < d)))
    refine ⟨f, ?_, by rw [this]; exact hf⟩
    rw [this, modredLoop.eq_def]; exact if_pos (by omega)
  | succ fuel ih =>
    intro f P hf hl hd
    by_cases hlt : P.natDegree < d
    · have : P % toPoly poly = P := (Polynomial.mod_eq_self_iff hm.ne0).2 (by
        rw [hm.degree]
        exact lt_of_le_of_lt degree_le_natDegree (by exact_mod_cast hlt))
      refine ⟨f, ?_, by rw [this]; exact hf⟩
      rw [this, modredLoop.eq_def]; exact if_pos hlt
    · have hd1 := hm.e1
      have hP : P ≠ 0 := by rintro rfl; rw [natDegree_zero] at hlt; omega
      have hlen : P.natDegree < length := by rw [degree_eq_natDegree hP] at hl; exact_mod_cast hl
      set k := P.natDegree - d with hk
      set Q : (ZMod 2)[X] := P + X ^ k * toPoly poly with hQ
      set f1 := mzdAdd 1 length f f (mzdXorRange zeroW 0 k (d + 1) poly) with hf1
      have hrow : RowIs f1 Q := by
        intro c
        rw [hQ, coeff_add, ← hf c, coeff_X_pow_mul']
        show gf2 (bitAt f1 0 c) = gf2 (bitAt f 0 c) + _
        rw [hf1, bitAt_addTo, gf2_xor]
        congr 1
        rw [bitAt_xorRange, bitAt_zeroW]
        by_cases hc : c < length
        · rw [decide_eq_true ⟨by norm_num, hc⟩, Bool.true_and]
          by_cases hkc : k ≤ c
          · by_cases hc2 : c < k + (d + 1)
            · rw [if_pos ⟨rfl, hkc, hc2⟩, if_pos hkc, Bool.false_xor, gf2_coeff]
            · rw [if_neg (by omega), if_pos hkc, toPoly_coeff, hm.bits _ (by omega)]; rfl
          · rw [if_neg (by omega), if_neg hkc]; rfl
        · rw [decide_eq_false (by omega), Bool.false_and]
          by_cases hkc : k ≤ c
          · rw [if_pos hkc, toPoly_coeff, hm.bits _ (by omega)]; rfl
          · rw [if_neg hkc]; rfl
      have hmono : (X ^ k * toPoly poly : (ZMod 2)[X]).degree = P.degree := by
        rw [degree_mul, degree_X_pow, hm.degree, degree_eq_natDegree hP, ← Nat.cast_add]
        congr 1; omega
      have hdeg : Q.degree < P.degree := by
        have h1 : Q = P - (X ^ k * toPoly poly) := by rw [hQ, CharTwo.sub_eq_add]
        rw [h1]
        refine degree_sub_lt hmono.symm hP ?_
        have a1 : P.leadingCoeff = 1 := by
          have : P.leadingCoeff ≠ 0 := leadingCoeff_ne_zero.2 hP
          revert this; generalize P.leadingCoeff = x; revert x; decide
        have a2 : (X ^ k * toPoly poly : (ZMod 2)[X]).leadingCoeff = 1 := by
          have : (X ^ k * toPoly poly : (ZMod 2)[X]).leadingCoeff ≠ 0 := leadingCoeff_ne_zero.2 (mul_ne_zero (pow_ne_zero _ X_ne_zero) hm.ne0)
          revert this; generalize (X ^ k * toPoly poly : (ZMod 2)[X]).leadingCoeff = x; revert x; decide
        rw [a1, a2]
      have hnd : Q.natDegree < P.natDegree ∨ Q = 0 := by
        by_cases h0 : Q = 0
        · exact Or.inr h0
        · exact Or.inl (natDegree_lt_natDegree h0 hdeg)
      have hmod : Q % toPoly poly = P % toPoly poly := by
        rw [hQ, Polynomial.add_mod, (EuclideanDomain.mod_eq_zero (a := X ^ k * toPoly poly)).2 (Dvd.intro_left _ rfl), add_zero]
      have hlen' : Q.degree < (length : WithBot ℕ) := lt_trans hdeg hl
      obtain ⟨f', e, hr⟩ := ih f1 Q hrow hlen' (by
        rcases hnd with h | h
        · omega
        · rw [h, natDegree_zero]; omega)
      rw [hmod] at e hr
      refine ⟨f', ?_, hr⟩
      rw [modredLoop.eq_def]
      refine (if_neg hlt).trans ?_
      simp only
      rw [if_neg (not_not.2 hlen)]
      have htop : rowTop ((length + 63) / 64) (f1 0) = Q.natDegree := by
        apply rowTop_natDegree hrow
        refine lt_of_lt_of_le hlen' ?_
        exact_mod_cast (by omega : length ≤ 64 * ((length + 63) / 64))
      rw [← hf1, htop]
      exact e

theorem twoPow_row (i : Nat) : RowIs (fun r j => if r = 0 ∧ j = i / 64 then twoPow (i % 64) else 0#64) (X ^ i) := by
  intro c
  rw [coeff_X_pow]
  show gf2 ((if 0 = 0 ∧ c / 64 = i / 64 then twoPow (i % 64) else 0#64).getLsbD (c % 64)) = _
  by_cases h : c / 64 = i / 64
  · rw [if_pos ⟨rfl, h⟩, getLsbD_twoPow]
    have h1 : c % 64 < 64 := Nat.mod_lt _ (by norm_num)
    rw [decide_eq_true h1, Bool.true_and]
    by_cases hc : c = i
    · rw [if_pos hc, hc]; simp [gf2]
    · rw [if_neg hc, decide_eq_false (by omega)]; rfl
  · rw [if_neg (by tauto), if_neg (by rintro rfl; exact h rfl)]; simp [gf2]

theorem and_one_ne (w : Word) (j : Nat) (hj : j < 64) : decide ((w >>> j) &&& 1#64 ≠ 0#64) = w.getLsbD j := by
  have h := twoPow_and (w >>> j) 0 (by norm_num)
  rw [BitVec.and_comm] at h
  rw [show twoPow 0 = 1#64 from rfl] at h
  rw [BitVec.getLsbD_ushiftRight] at h
  by_cases hb : w.getLsbD j = true
  · rw [hb]; exact decide_eq_true (h.2 (by simpa using hb))
  · rw [Bool.not_eq_true] at hb
    rw [hb]
    exact decide_eq_false fun hc => by have := h.1 hc; simp [hb] at this

/-- `_crt_modred_mat(length, poly, d)`: column `i` holds the coefficients of `x^i mod poly` -/
theorem crtModredMat_spec {poly : Word} {d : Nat} (hm : MinOK poly d) (length : Nat) :
    ∃ A, crtModredMat? length poly d = some A ∧ ∀ a i, gf2Entry A a i = if i < length then (X ^ i % toPoly poly : (ZMod 2)[X]).coeff a else 0 := by
  have hp0 : poly ≠ 0#64 := by rintro rfl; exact hm.ne0 toPoly_zero
  suffices h : ∀ n, n ≤ length → ∃ A, forNM (fun i A =>
      (modredLoop length poly d length (fun r j => if r = 0 ∧ j = i / 64 then twoPow (i % 64) else 0#64) i).bind fun (f, ii) =>
        some (forN (fun j A => mzdWriteBit A j i (decide ((f 0 (j / 64) >>> (j % 64)) &&& 1#64 ≠ 0#64))) (ii + 1) A)) n zeroW = some A ∧
      ∀ a i, gf2Entry A a i = if i < n then (X ^ i % toPoly poly : (ZMod 2)[X]).coeff a else 0 by
    obtain ⟨A, e, hA⟩ := h length le_rfl
    exact ⟨A, by unfold crtModredMat?; rw [if_neg hp0]; exact e, hA⟩
  intro n
  induction n with
  | zero =>
    intro _
    refine ⟨zeroW, rfl, fun a i => ?_⟩
    rw [if_neg (by omega)]
    exact gf2_eq_zero.2 (bitAt_zeroW a i)
  | succ n ih =>
    intro hn
    obtain ⟨A, e, hA⟩ := ih (by omega)
    obtain ⟨f', e2, hf'⟩ := modredLoop_spec (length := length) hm length _ _ (twoPow_row n)
      (by rw [degree_X_pow]; exact_mod_cast (by omega : n < length)) (by rw [natDegree_X_pow]; omega)
    rw [natDegree_X_pow] at e2
    rw [forNM, e, Option.bind_some, e2, Option.bind_some]
    refine ⟨_, rfl, ?_⟩
    intro a i
    have key : ∀ N, bitAt (forN (fun j A => mzdWriteBit A j n (decide ((f' 0 (j / 64) >>> (j % 64)) &&& 1#64 ≠ 0#64))) N A) a i =
        if a < N ∧ i = n then bitAt f' 0 a else bitAt A a i := by
      intro N
      induction N with
      | zero => rw [if_neg (by omega)]; rfl
      | succ N ihN =>
        rw [forN, bitAt_writeBit, ihN]
        by_cases h : a = N ∧ i = n
        · rw [if_pos h, if_pos (by omega), h.1, and_one_ne _ _ (Nat.mod_lt _ (by norm_num))]; rfl
        · rw [if_neg h]
          by_cases h2 : a < N ∧ i = n
          · rw [if_pos h2, if_pos (by omega)]
          · rw [if_neg h2, if_neg (by omega)]
    show gf2 (bitAt _ a i) = _
    rw [key]
    by_cases hi : i = n
    · subst hi
      rw [if_pos (by omega : i < i + 1)]
      by_cases ha : a < (X ^ i % toPoly poly : (ZMod 2)[X]).natDegree + 1
      · rw [if_pos ⟨ha, rfl⟩]; exact hf' a
      · rw [if_neg (by omega), coeff_eq_zero_of_natDegree_lt (by omega)]
        have := hA a i
        rw [if_neg (by omega)] at this
        exact this
    · rw [if_neg (by omega)]
      have := hA a i
      rw [show gf2 (bitAt A a i) = _ from this]
      by_cases h : i < n
      · rw [if_pos h, if_pos (by omega)]
      · rw [if_neg h, if_neg (by omega)]

/-- the point at infinity: row `a` selects the coefficient of `x^(length-a-1)` -/
theorem crtModredMat_inf {d length : Nat} (h : d ≤ length) :
    ∃ A, crtModredMat? length 0#64 d = some A ∧ ∀ a i, bitAt A a i = decide (a < d ∧ i + a + 1 = length) := by
  refine ⟨_, by unfold crtModredMat?; rw [if_pos rfl, if_pos h], fun a i => ?_⟩
  have key : ∀ N, N ≤ length → bitAt (forN (fun i A => mzdWriteBit A i (length - i - 1) true) N zeroW) a i = decide (a < N ∧ i + a + 1 = length) := by
    intro N
    induction N with
    | zero => intro _; rw [decide_eq_false (by omega)]; exact bitAt_zeroW a i
    | succ N ih =>
      intro hN
      rw [forN, bitAt_writeBit, ih (by omega)]
      by_cases hc : a = N ∧ i = length - N - 1
      · rw [if_pos hc, decide_eq_true (by omega)]
      · rw [if_neg hc]; exact decide_eq_decide.2 (by omega)
  exact key d h

end M4rie
