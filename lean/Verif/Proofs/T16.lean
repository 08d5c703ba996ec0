import Verif.Proofs.MzedElem

namespace M4rie
open M4rie.Spec Polynomial

theorem twoPow_sub_one {w : Nat} (hw : OkW w) : twoPow w - 1#64 = lowMask w := by
  rcases hw with rfl | rfl | rfl | rfl <;> decide

theorem lane_of_shift {w : Nat} (hw : OkW w) (i : Word) (k : Nat) :
    (i >>> (k * w)) &&& (twoPow w - 1#64) = laneVal w i k := by
  have hl := hw.le
  rw [twoPow_sub_one hw, and_lowmask w _ _ (by omega) (fun i hi => getLsbD_lowMask w i hi), lane_ushr _ _ _ _ (by omega)]
  simp

/-- one table entry, when every lane product is defined -/
theorem t16Entry_spec {ff : Gf2e} {w : Nat} (hw : OkW w) (a i : Word) (g : Nat → Word) : ∀ n, n ≤ 64 / w →
    (∀ k, k < n → gf2eMul? ff a (laneVal w i k) = some (g k) ∧ (g k).toNat < 2 ^ w) →
    ∃ r, t16Entry? ff w a i n = some r ∧ ∀ k, k < 64 / w → laneVal w r k = if k < n then g k else 0#64 := by
  intro n
  induction n with
  | zero => intro _ _; exact ⟨0#64, rfl, by simp⟩
  | succ n ih =>
    intro hn h
    obtain ⟨r, h1, h2⟩ := ih (by omega) (fun k hk => h k (by omega))
    obtain ⟨h3, h4⟩ := h n (by omega)
    refine ⟨r ||| (g n <<< (n * w)), ?_, ?_⟩
    · rw [t16Entry?, h1]
      unfold t16Lane?
      rw [lane_of_shift hw, h3]
      rfl
    · intro k hk
      have hl := hw.le
      rw [lane_or _ _ _ _ (by omega), h2 k hk, lane_shl hw _ h4 n k (by omega) hk]
      by_cases hkn : k = n
      · subst hkn; simp
      · have : k < n ↔ k < n + 1 := by omega
        simp [hkn, this]

theorem t16Entry_none {ff : Gf2e} {w : Nat} (hw : OkW w) (a i : Word) (k : Nat)
    (hk : gf2eMul? ff a (laneVal w i k) = none) : ∀ n, k < n → t16Entry? ff w a i n = none := by
  intro n
  induction n with
  | zero => intro h; omega
  | succ n ih =>
    intro h
    rw [t16Entry?]
    by_cases hkn : k = n
    · subst hkn
      unfold t16Lane?
      rw [lane_of_shift hw, hk]
      cases t16Entry? ff w a i k <;> rfl
    · rw [ih (by omega)]; rfl

/-- the arithmetic multiplication accepts one extra bit in its second argument -/
theorem gf2eMulArith?_spec' {ff : Gf2e} (h : FFOK ff) (a b : Word)
    (ha : a.toNat < 2 ^ ff.degree) (hb : b.toNat < 2 ^ (ff.degree + 1)) :
    ∃ v, gf2eMulArith? ff a b = some v ∧ v.toNat < 2 ^ ff.degree ∧
      toPoly v = (toPoly a * toPoly b) % toPoly ff.minpoly := by
  have e16 := h.min.e16
  have e1 := h.min.e1
  set e := ff.degree with he
  have h1 : toPoly (gf2xMul a b e) = toPoly a * toPoly b :=
    gf2xMul_poly a b e (e+1) ((bitsLt_iff _ _).2 ha) ((bitsLt_iff _ _).2 hb) (by omega) (by omega)
  have h2 : BitsLt (gf2xMul a b e) (2 * e) := by
    rw [← degree_toPoly_lt_iff, h1]
    have ha' := (degree_toPoly_lt_iff' a e).2 ha
    have hb' := (degree_toPoly_lt_iff' b (e+1)).2 hb
    by_cases ha0 : toPoly a = 0
    · rw [ha0, zero_mul, degree_zero, bot_lt_iff_ne_bot]; exact WithBot.coe_ne_bot
    by_cases hb0 : toPoly b = 0
    · rw [hb0, mul_zero, degree_zero, bot_lt_iff_ne_bot]; exact WithBot.coe_ne_bot
    rw [degree_eq_natDegree (mul_ne_zero ha0 hb0), natDegree_mul ha0 hb0]
    rw [degree_eq_natDegree ha0, Nat.cast_lt] at ha'
    rw [degree_eq_natDegree hb0, Nat.cast_lt] at hb'
    rw [Nat.cast_lt]; omega
  obtain ⟨r1, r2, r3⟩ := red_reduce h _ h2
  refine ⟨_, ?_, r3, ?_⟩
  · unfold gf2eMulArith?
    rw [gf2xMul?_eq a b _ h.min.e1 (by omega), Option.bind_some, if_pos r1]
  · rw [r2, h1]

/-- when `gf2e_mul(ff,a,b)` with a `w`-bit second argument stays inside its tables -/
def MulReads (ff : Gf2e) (a b : Word) : Prop :=
  if ff.degree ≤ 8 then b.toNat < 2 ^ ff.degree else (toPoly a * toPoly b).degree < ((2 * ff.degree : Nat) : WithBot Nat)

theorem gf2eMul?_reads {ff : Gf2e} (h : FFOK ff) (a b : Word)
    (ha : a.toNat < 2 ^ ff.degree) (hb : b.toNat < 2 ^ 16) (hr : MulReads ff a b) :
    ∃ v, gf2eMul? ff a b = some v ∧ v.toNat < 2 ^ ff.degree ∧
      toPoly v = (toPoly a * toPoly b) % toPoly ff.minpoly := by
  unfold MulReads at hr
  by_cases h8 : ff.degree ≤ 8
  · rw [if_pos h8] at hr
    obtain ⟨h1, h2, h3⟩ := gf2eMul_spec h a b ha hr
    exact ⟨_, h1, h2, h3⟩
  · rw [if_neg h8] at hr
    have e16 := h.min.e16
    have e1 := h.min.e1
    have h1 : toPoly (gf2xMul a b ff.degree) = toPoly a * toPoly b :=
      gf2xMul_poly a b ff.degree 16 ((bitsLt_iff _ _).2 ha) ((bitsLt_iff _ _).2 hb) (by omega) (by omega)
    have h2 : BitsLt (gf2xMul a b ff.degree) (2 * ff.degree) := by
      rw [← degree_toPoly_lt_iff, h1]; exact hr
    obtain ⟨r1, r2, r3⟩ := red_reduce h _ h2
    refine ⟨_, ?_, r3, ?_⟩
    · unfold gf2eMul? gf2eMulArith?
      rw [h.tab, if_neg h8]
      show (gf2xMul? a b ff.degree).bind _ = _
      rw [gf2xMul?_eq a b _ h.min.e1 (by omega), Option.bind_some, if_pos r1]
    · rw [r2, h1]

theorem gf2eMul?_not_reads {ff : Gf2e} (h : FFOK ff) (a b : Word)
    (ha : a.toNat < 2 ^ ff.degree) (hb : b.toNat < 2 ^ 16) (hr : ¬ MulReads ff a b) : gf2eMul? ff a b = none := by
  unfold MulReads at hr
  by_cases h8 : ff.degree ≤ 8
  · rw [if_pos h8] at hr
    unfold gf2eMul?
    rw [h.tab, if_pos h8]
    unfold gf2eMulTable?
    exact if_neg (fun h => hr h.2)
  · rw [if_neg h8] at hr
    have e16 := h.min.e16
    have e1 := h.min.e1
    have h1 : toPoly (gf2xMul a b ff.degree) = toPoly a * toPoly b :=
      gf2xMul_poly a b ff.degree 16 ((bitsLt_iff _ _).2 ha) ((bitsLt_iff _ _).2 hb) (by omega) (by omega)
    unfold gf2eMul? gf2eMulArith?
    rw [h.tab, if_neg h8]
    show (gf2xMul? a b ff.degree).bind _ = _
    rw [gf2xMul?_eq a b _ h.min.e1 (by omega), Option.bind_some, if_neg]
    intro hlt
    apply hr
    rw [← h1, degree_toPoly_lt_iff, bitsLt_iff]
    rw [BitVec.toNat_ushiftRight, Nat.shiftRight_eq_div_pow, Nat.div_lt_iff_lt_mul (by positivity), ← pow_add] at hlt
    rwa [two_mul]

end M4rie
