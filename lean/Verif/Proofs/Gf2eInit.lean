import Verif.Model.Gf2e
import Verif.Proofs.Gf2xInv

namespace M4rie
open Polynomial Spec

/-- A word encodes a polynomial of degree exactly `e` with `1 ≤ e ≤ 16`. -/
structure MinOK (f : Word) (e : Nat) : Prop where
  deg : (toPoly f).natDegree = e
  e1 : 1 ≤ e
  e16 : e ≤ 16

theorem MinOK.ne0 {f e} (h : MinOK f e) : toPoly f ≠ 0 := by
  intro h0; have := h.deg; rw [h0] at this; simp at this; have := h.e1; omega

theorem MinOK.degree {f e} (h : MinOK f e) : (toPoly f).degree = (e : ℕ) := by
  rw [degree_eq_natDegree h.ne0, h.deg]

theorem MinOK.bits {f e} (h : MinOK f e) : BitsLt f (e + 1) := by
  apply natDegree_lt_bits; rw [h.deg]; omega

theorem MinOK.top {f e} (h : MinOK f e) : f.getLsbD e = true := by
  have h1 : (toPoly f).coeff e ≠ 0 := by
    rw [← h.deg]; exact leadingCoeff_ne_zero.2 h.ne0
  rw [toPoly_coeff] at h1
  by_contra hc; simp [hc] at h1

theorem and_twoPow (w : Word) (i : Nat) (hi : i < 64) : (w &&& twoPow i ≠ 0#64) ↔ w.getLsbD i = true := by
  constructor
  · intro h
    by_contra hc
    apply h
    apply BitVec.eq_of_getLsbD_eq
    intro j hj
    rw [BitVec.getLsbD_and, getLsbD_twoPow]
    by_cases hij : i = j
    · subst hij; simp [hc]
    · simp [hij]
  · intro h hc
    have h2 : (w &&& twoPow i).getLsbD i = false := by rw [hc]; simp
    rw [BitVec.getLsbD_and, getLsbD_twoPow, h] at h2
    simp [hi] at h2

theorem twoPow_and (w : Word) (i : Nat) (hi : i < 64) : (twoPow i &&& w ≠ 0#64) ↔ w.getLsbD i = true := by
  rw [BitVec.and_comm]; exact and_twoPow w i hi

theorem initDegreeLoop_eq (f : Word) (e : Nat) (ht : f.getLsbD e = true) (hb : BitsLt f (e+1)) :
    ∀ n, e < n → n ≤ 64 → initDegreeLoop f n = e := by
  intro n
  induction n with
  | zero => intro h; omega
  | succ n ih =>
    intro h h64
    rw [initDegreeLoop]
    by_cases hn : n = e
    · subst hn
      rw [if_pos ((twoPow_and f n (by omega)).2 ht)]
    · rw [if_neg]
      · exact ih (by omega) (by omega)
      · rw [not_not]
        by_contra hc
        have := (twoPow_and f n (by omega)).1 hc
        rw [hb n (by omega)] at this
        exact absurd this (by simp)

theorem initDegree_eq {f e} (h : MinOK f e) : initDegree f = e :=
  initDegreeLoop_eq f e h.top h.bits _ (by have := h.e16; unfold maxDegree; omega) (by unfold maxDegree; omega)

theorem redTmp_poly {f e} (h : MinOK f e) (i : Word) : ∀ j, j ≤ e →
    toPoly (redTmp f i j) = lowPoly i j * toPoly f := by
  intro j
  induction j with
  | zero => intro _; simp [redTmp, lowPoly]
  | succ j ih =>
    intro hj
    have he := h.e16
    have hl : lowPoly i (j+1) = lowPoly i j + (if i.getLsbD j then X ^ j else 0) := by
      unfold lowPoly; rw [Finset.sum_range_succ]
    rw [redTmp]
    by_cases hc : i.getLsbD j = true
    · rw [if_pos ((twoPow_and i j (by omega)).2 hc), toPoly_xor, ih (by omega),
        toPoly_shiftLeft f j (e+1) h.bits (by omega), hl, if_pos hc]
      ring
    · rw [if_neg (fun hh => hc ((twoPow_and i j (by omega)).1 hh)), ih (by omega), hl, if_neg hc]
      ring

/-- the multiple `i*f` -/
theorem redTmp_full {f e} (h : MinOK f e) (i : Word) (hi : i.toNat < 2 ^ e) :
    toPoly (redTmp f i e) = toPoly i * toPoly f := by
  rw [redTmp_poly h i e le_rfl, lowPoly_eq i e ((bitsLt_iff i e).2 hi)]

theorem redTmp_bits {f e} (h : MinOK f e) (i : Word) (hi : i.toNat < 2 ^ e) :
    BitsLt (redTmp f i e) (2 * e) := by
  rw [← degree_toPoly_lt_iff, redTmp_full h i hi, degree_mul, h.degree]
  have := (degree_toPoly_lt_iff' i e).2 hi
  have h2 : ((2 * e : ℕ) : WithBot ℕ) = (e : WithBot ℕ) + (e : WithBot ℕ) := by
    rw [← Nat.cast_add]; congr 1; omega
  rw [h2]
  exact WithBot.add_lt_add_right (by exact WithBot.coe_ne_bot) this

theorem shift_lt (w : Word) (e : Nat) (h : BitsLt w (2 * e)) : (w >>> e).toNat < 2 ^ e := by
  rw [← bitsLt_iff]
  intro i hi
  rw [BitVec.getLsbD_ushiftRight]; exact h _ (by omega)

/-- two multiples of `f` (by polynomials of degree < e) with the same high part are equal -/
theorem multiple_unique {f e} (h : MinOK f e) (u v : Word)
    (hu : toPoly f ∣ toPoly u) (hv : toPoly f ∣ toPoly v)
    (hs : u >>> e = v >>> e) : u = v := by
  apply toPoly_injective
  have hd : (toPoly u - toPoly v).degree < (toPoly f).degree := by
    rw [h.degree, degree_lt_iff_coeff_zero]
    intro m hm
    have hm' : e ≤ m := by exact_mod_cast hm
    rw [coeff_sub, toPoly_coeff, toPoly_coeff]
    have := congrArg (fun w => BitVec.getLsbD w (m - e)) hs
    simp only [BitVec.getLsbD_ushiftRight] at this
    rw [Nat.add_sub_cancel' hm'] at this
    rw [this]; simp
  have := Polynomial.eq_zero_of_dvd_of_degree_lt (dvd_sub hu hv) hd
  exact sub_eq_zero.1 this

theorem ofNat_toNat_lt {e : Nat} (he : e ≤ 16) {k : Nat} (hk : k < 2 ^ e) :
    (BitVec.ofNat 64 k).toNat = k := by
  rw [BitVec.toNat_ofNat]
  apply Nat.mod_eq_of_lt
  exact lt_of_lt_of_le hk (Nat.pow_le_pow_right (by norm_num) (by omega))

/-- slot of the i-th multiple -/
def redSlot (f : Word) (e : Nat) (i : Nat) : Nat := (redTmp f (BitVec.ofNat 64 i) e >>> e).toNat

theorem redSlot_lt {f e} (h : MinOK f e) {i : Nat} (hi : i < 2 ^ e) : redSlot f e i < 2 ^ e := by
  apply shift_lt
  apply redTmp_bits h
  rw [ofNat_toNat_lt h.e16 hi]; exact hi

theorem redSlot_inj {f e} (h : MinOK f e) {i j : Nat} (hi : i < 2 ^ e) (hj : j < 2 ^ e)
    (hs : redSlot f e i = redSlot f e j) : i = j := by
  have hi' := ofNat_toNat_lt h.e16 hi
  have hj' := ofNat_toNat_lt h.e16 hj
  have h1 : redTmp f (BitVec.ofNat 64 i) e = redTmp f (BitVec.ofNat 64 j) e := by
    apply multiple_unique h
    · rw [redTmp_full h _ (by rw [hi']; exact hi)]; exact Dvd.intro_left _ rfl
    · rw [redTmp_full h _ (by rw [hj']; exact hj)]; exact Dvd.intro_left _ rfl
    · exact BitVec.eq_of_toNat_eq hs
  have h2 := congrArg toPoly h1
  rw [redTmp_full h _ (by rw [hi']; exact hi), redTmp_full h _ (by rw [hj']; exact hj)] at h2
  have h3 := toPoly_injective (mul_right_cancel₀ h.ne0 h2)
  rw [← hi', ← hj', h3]

theorem redLoop_spec {f e} (h : MinOK f e) : ∀ k, k < 2 ^ e →
    ∃ red, redLoop f e k = some red ∧
      (∀ i, 1 ≤ i → i ≤ k → red (redSlot f e i) = redTmp f (BitVec.ofNat 64 i) e) ∧
      (∀ t, (∀ i, 1 ≤ i → i ≤ k → redSlot f e i ≠ t) → red t = 0#64) := by
  intro k
  induction k with
  | zero =>
    intro _
    refine ⟨_, rfl, ?_, ?_⟩
    · intro i h1 h2; omega
    · intro t _; rfl
  | succ k ih =>
    intro hk
    obtain ⟨red, hr, h1, h2⟩ := ih (by omega)
    have hz : red (redSlot f e (k+1)) = 0#64 := by
      apply h2
      intro i hi1 hi2 hs
      have := redSlot_inj h (by omega) hk hs
      omega
    refine ⟨fun t => if t = redSlot f e (k+1) then redTmp f (BitVec.ofNat 64 (k+1)) e else red t, ?_, ?_, ?_⟩
    · rw [redLoop, hr, Option.bind_some]
      exact if_pos ⟨redSlot_lt h hk, hz⟩
    · intro i hi1 hi2
      by_cases hik : i = k + 1
      · subst hik; simp
      · have hne : redSlot f e i ≠ redSlot f e (k+1) := by
          intro hs; exact hik (redSlot_inj h (by omega) hk hs)
        simp only [hne, if_false]
        exact h1 i hi1 (by omega)
    · intro t ht
      have hne : t ≠ redSlot f e (k+1) := fun hc => ht (k+1) (by omega) le_rfl hc.symm
      simp only [hne, if_false]
      exact h2 t (fun i hi1 hi2 => ht i hi1 (by omega))

theorem redSlot_zero {f e} (h : MinOK f e) : redSlot f e 0 = 0 := by
  have : redTmp f (BitVec.ofNat 64 0) e = 0#64 := by
    apply toPoly_injective
    rw [redTmp_full h]
    · simp
    · simp
  unfold redSlot; rw [this]; simp

theorem redSlot_surj {f e} (h : MinOK f e) {t : Nat} (ht : t < 2 ^ e) : ∃ i, i < 2 ^ e ∧ redSlot f e i = t := by
  have := Finset.surj_on_of_inj_on_of_card_le (s := Finset.range (2^e)) (t := Finset.range (2^e))
    (fun i _ => redSlot f e i)
    (fun i hi => Finset.mem_range.2 (redSlot_lt h (Finset.mem_range.1 hi)))
    (fun i j hi hj hs => redSlot_inj h (Finset.mem_range.1 hi) (Finset.mem_range.1 hj) hs)
    le_rfl t (Finset.mem_range.2 ht)
  obtain ⟨i, hi, hs⟩ := this
  exact ⟨i, Finset.mem_range.1 hi, hs.symm⟩

/-- facts about an initialised field object -/
structure FFOK (ff : Gf2e) : Prop where
  min : MinOK ff.minpoly ff.degree
  red_dvd : ∀ t, t < 2 ^ ff.degree → toPoly ff.minpoly ∣ toPoly (ff.red t)
  red_high : ∀ t, t < 2 ^ ff.degree → (ff.red t >>> ff.degree).toNat = t
  red_bits : ∀ t, t < 2 ^ ff.degree → (ff.red t).toNat < 2 ^ (2 * ff.degree)
  pow : ff.powGen = initPowGen ff.minpoly ff.degree
  tab : ff.mulTab = if ff.degree ≤ 8 then some (initMulTab ff.degree ff.red) else none

theorem gf2eInit_ok {f e} (h : MinOK f e) :
    ∃ ff, gf2eInit f = some ff ∧ ff.degree = e ∧ ff.minpoly = f ∧ FFOK ff := by
  have hpos : 0 < 2 ^ e := by positivity
  obtain ⟨red, hr, h1, h2⟩ := redLoop_spec h (2 ^ e - 1) (by omega)
  have key : ∀ t, t < 2 ^ e → ∃ i, i < 2 ^ e ∧ redSlot f e i = t ∧ red t = redTmp f (BitVec.ofNat 64 i) e := by
    intro t ht
    obtain ⟨i, hi, hs⟩ := redSlot_surj h ht
    refine ⟨i, hi, hs, ?_⟩
    by_cases hi0 : i = 0
    · subst hi0
      rw [redSlot_zero h] at hs
      subst hs
      rw [h2 0]
      · symm
        apply toPoly_injective
        rw [redTmp_full h]
        · simp
        · simp
      · intro j hj1 hj2 hs
        have := redSlot_inj h (i := j) (j := 0) (by omega) (by omega) (by rw [hs, redSlot_zero h])
        omega
    · rw [← hs]; exact h1 i (by omega) (by omega)
  refine ⟨_, by unfold gf2eInit; simp only [initDegree_eq h, hr, Option.bind_some]; rfl, rfl, rfl, ?_⟩
  refine ⟨h, ?_, ?_, ?_, rfl, rfl⟩
  · intro t ht
    obtain ⟨i, hi, _, hrt⟩ := key t ht
    simp only [hrt]
    rw [redTmp_full h _ (by rw [ofNat_toNat_lt h.e16 hi]; exact hi)]
    exact Dvd.intro_left _ rfl
  · intro t ht
    obtain ⟨i, hi, hs, hrt⟩ := key t ht
    simp only [hrt]; exact hs
  · intro t ht
    obtain ⟨i, hi, hs, hrt⟩ := key t ht
    simp only [hrt]
    rw [← bitsLt_iff]
    exact redTmp_bits h _ (by rw [ofNat_toNat_lt h.e16 hi]; exact hi)

/-! ### reduction with the `red` table -/

/-- Uniqueness of remainders. -/
theorem mod_eq_of {p f r : (ZMod 2)[X]} (hd : r.degree < f.degree) (hdvd : f ∣ p - r) : p % f = r := by
  obtain ⟨k, hk⟩ := hdvd
  have : p = r + f * k := by rw [← hk]; ring
  rw [this, Polynomial.add_mod, (EuclideanDomain.mod_eq_zero).2 (Dvd.intro _ rfl), add_zero]
  exact (Polynomial.mod_eq_self_iff (by rintro rfl; simp at hd)).2 hd

theorem red_reduce {ff : Gf2e} (h : FFOK ff) (res : Word) (hb : BitsLt res (2 * ff.degree)) :
    (res >>> ff.degree).toNat < 2 ^ ff.degree ∧
    toPoly (res ^^^ ff.red (res >>> ff.degree).toNat) = toPoly res % toPoly ff.minpoly ∧
    (res ^^^ ff.red (res >>> ff.degree).toNat).toNat < 2 ^ ff.degree := by
  have hlt := shift_lt res ff.degree hb
  have hbits : BitsLt (res ^^^ ff.red (res >>> ff.degree).toNat) ff.degree := by
    intro i hi
    have h1 : ff.red (res >>> ff.degree).toNat >>> ff.degree = res >>> ff.degree :=
      BitVec.eq_of_toNat_eq (h.red_high _ hlt)
    have h2 := congrArg (fun w => BitVec.getLsbD w (i - ff.degree)) h1
    simp only [BitVec.getLsbD_ushiftRight] at h2
    rw [Nat.add_sub_cancel' hi] at h2
    rw [BitVec.getLsbD_xor, h2]; simp
  refine ⟨hlt, ?_, (bitsLt_iff _ _).1 hbits⟩
  symm
  apply mod_eq_of
  · rw [h.min.degree, degree_toPoly_lt_iff]; exact hbits
  · rw [toPoly_xor]
    have : toPoly res - (toPoly res + toPoly (ff.red (res >>> ff.degree).toNat)) = - toPoly (ff.red (res >>> ff.degree).toNat) := by ring
    rw [this]
    exact (dvd_neg).2 (h.red_dvd _ hlt)

theorem gf2xMul_elem {e : Nat} (he : e ≤ 16) (a b : Word) (ha : a.toNat < 2 ^ e) (hb : b.toNat < 2 ^ e) :
    toPoly (gf2xMul a b e) = toPoly a * toPoly b ∧ BitsLt (gf2xMul a b e) (2 * e) := by
  have h1 : toPoly (gf2xMul a b e) = toPoly a * toPoly b :=
    gf2xMul_poly a b e e ((bitsLt_iff _ _).2 ha) ((bitsLt_iff _ _).2 hb) (by omega) (by omega)
  refine ⟨h1, ?_⟩
  rw [← degree_toPoly_lt_iff, h1, degree_mul]
  have ha' := (degree_toPoly_lt_iff' a e).2 ha
  have hb' := (degree_toPoly_lt_iff' b e).2 hb
  have h2 : ((2 * e : ℕ) : WithBot ℕ) = (e : WithBot ℕ) + (e : WithBot ℕ) := by
    rw [← Nat.cast_add]; congr 1; omega
  rw [h2]
  by_cases hb0 : toPoly b = 0
  · rw [hb0, degree_zero, WithBot.add_bot, bot_lt_iff_ne_bot, ← Nat.cast_add]
    exact WithBot.coe_ne_bot
  · exact lt_of_lt_of_le (WithBot.add_lt_add_right (fun h => hb0 (degree_eq_bot.1 h)) ha')
      (add_le_add le_rfl hb'.le)

/-- both multiplication routines compute the product modulo the minimal polynomial -/
theorem gf2eMulArith?_spec {ff : Gf2e} (h : FFOK ff) (a b : Word)
    (ha : a.toNat < 2 ^ ff.degree) (hb : b.toNat < 2 ^ ff.degree) :
    ∃ v, gf2eMulArith? ff a b = some v ∧ v.toNat < 2 ^ ff.degree ∧
      toPoly v = (toPoly a * toPoly b) % toPoly ff.minpoly := by
  obtain ⟨h1, h2⟩ := gf2xMul_elem h.min.e16 a b ha hb
  obtain ⟨r1, r2, r3⟩ := red_reduce h _ h2
  refine ⟨_, ?_, r3, ?_⟩
  · unfold gf2eMulArith?
    rw [gf2xMul?_eq a b _ h.min.e1 (by have := h.min.e16; omega), Option.bind_some, if_pos r1]
  · rw [r2, h1]

theorem initMulTab_eq {ff : Gf2e} (h : FFOK ff) (a b : Word)
    (ha : a.toNat < 2 ^ ff.degree) (hb : b.toNat < 2 ^ ff.degree) :
    gf2eMulArith? ff a b = some (initMulTab ff.degree ff.red a.toNat b.toNat) := by
  obtain ⟨v, hv, hlt, hp⟩ := gf2eMulArith?_spec h a b ha hb
  rw [hv]
  unfold initMulTab
  by_cases h0 : a.toNat = 0 ∨ b.toNat = 0
  · rw [if_pos h0]
    have : toPoly a * toPoly b = 0 := by
      rcases h0 with h0 | h0
      · have : a = 0#64 := BitVec.eq_of_toNat_eq (by simpa using h0)
        rw [this]; simp
      · have : b = 0#64 := BitVec.eq_of_toNat_eq (by simpa using h0)
        rw [this]; simp
    rw [this, EuclideanDomain.zero_mod] at hp
    rw [(toPoly_eq_zero_iff v).1 hp]
  · rw [if_neg h0]
    simp only [BitVec.ofNat_toNat, BitVec.setWidth_eq]
    rw [← hv]
    obtain ⟨h1, h2⟩ := gf2xMul_elem h.min.e16 a b ha hb
    obtain ⟨r1, r2, r3⟩ := red_reduce h _ h2
    unfold gf2eMulArith?
    rw [gf2xMul?_eq a b _ h.min.e1 (by have := h.min.e16; omega), Option.bind_some, if_pos r1]

theorem gf2eMul?_eq_arith {ff : Gf2e} (h : FFOK ff) (a b : Word)
    (ha : a.toNat < 2 ^ ff.degree) (hb : b.toNat < 2 ^ ff.degree) :
    gf2eMul? ff a b = gf2eMulArith? ff a b := by
  unfold gf2eMul?
  rw [h.tab]
  by_cases h8 : ff.degree ≤ 8
  · simp only [h8, if_true]
    unfold gf2eMulTable?
    rw [if_pos ⟨ha, hb⟩, initMulTab_eq h a b ha hb]
  · simp only [h8, if_false]

theorem gf2eMul_spec {ff : Gf2e} (h : FFOK ff) (a b : Word)
    (ha : a.toNat < 2 ^ ff.degree) (hb : b.toNat < 2 ^ ff.degree) :
    gf2eMul? ff a b = some (gf2eMul ff a b) ∧ (gf2eMul ff a b).toNat < 2 ^ ff.degree ∧
      toPoly (gf2eMul ff a b) = (toPoly a * toPoly b) % toPoly ff.minpoly := by
  obtain ⟨v, hv, h1, h2⟩ := gf2eMulArith?_spec h a b ha hb
  have : gf2eMul ff a b = v := by
    unfold gf2eMul; rw [gf2eMul?_eq_arith h a b ha hb, hv]; rfl
  rw [this, gf2eMul?_eq_arith h a b ha hb, hv]
  exact ⟨rfl, h1, h2⟩

/-! ### pow_gen -/

theorem powGenLoop_spec {f e} (h : MinOK f e) (P : (ZMod 2)[X]) : ∀ n p, e + n ≤ 64 → BitsLt p (e + n) →
    toPoly f ∣ P - toPoly p →
    BitsLt (powGenLoop f e n p) e ∧ toPoly f ∣ P - toPoly (powGenLoop f e n p) := by
  intro n
  induction n with
  | zero => intro p _ hp hd; simp only [powGenLoop]; exact ⟨by simpa using hp, hd⟩
  | succ n ih =>
    intro p hn hp hd
    rw [powGenLoop]
    by_cases hc : p.getLsbD (e + n) = true
    · rw [if_pos ((and_twoPow p (e+n) (by omega)).2 hc)]
      apply ih _ (by omega)
      · intro i hi
        rw [BitVec.getLsbD_xor, BitVec.getLsbD_shiftLeft]
        by_cases hi2 : i = e + n
        · subst hi2
          have : e + n - n = e := by omega
          rw [hc, this, h.top]
          have h1 : e + n < 64 := by omega
          simp [h1]
        · rw [hp i (by omega), h.bits (i - n) (by omega)]; simp
      · rw [toPoly_xor, toPoly_shiftLeft f n (e+1) h.bits (by omega)]
        have : P - (toPoly p + toPoly f * X ^ n) = (P - toPoly p) - toPoly f * X ^ n := by ring
        rw [this]
        exact dvd_sub hd (Dvd.intro _ rfl)
    · rw [if_neg (fun hh => hc ((and_twoPow p (e+n) (by omega)).1 hh))]
      apply ih _ (by omega) _ hd
      intro i hi
      by_cases hi2 : i = e + n
      · subst hi2; simpa using hc
      · exact hp i (by omega)

theorem initPowGen_spec {f e} (h : MinOK f e) (i : Nat) (hi : i < 64) :
    toPoly (initPowGen f e i) = X ^ i % toPoly f ∧ (initPowGen f e i).toNat < 2 ^ e := by
  unfold initPowGen
  have he := h.e16
  obtain ⟨h1, h2⟩ := powGenLoop_spec h (X ^ i) (i + 1 - e) (twoPow i) (by omega)
    (by intro j hj; rw [getLsbD_twoPow]; have : i ≠ j := by omega
        simp [this])
    (by rw [toPoly_twoPow i hi]; simp)
  refine ⟨?_, (bitsLt_iff _ _).1 h1⟩
  symm
  apply mod_eq_of _ h2
  rw [h.degree, degree_toPoly_lt_iff]; exact h1

end M4rie
