import Verif.Proofs.PolyWord
import Mathlib.Tactic.LinearCombination

namespace M4rie
open Polynomial Spec

theorem gf2xDegStep_inv (mask : Word) (s : Nat) (hs : 1 ≤ s) (hs32 : s ≤ 32)
    (hmask : ∀ i, i < 64 → mask.getLsbD i = decide (s ≤ i ∧ i < 2 * s))
    (a : Word) (p : Nat × Word) (ha : p.2 ≠ 0#64)
    (hlog : Nat.log2 a.toNat = p.1 + Nat.log2 p.2.toNat) (hlt : p.2.toNat < 2 ^ (2 * s)) :
    (gf2xDegStep mask s p).2 ≠ 0#64 ∧
    Nat.log2 a.toNat = (gf2xDegStep mask s p).1 + Nat.log2 (gf2xDegStep mask s p).2.toNat ∧
    (gf2xDegStep mask s p).2.toNat < 2 ^ s := by
  obtain ⟨n, x⟩ := p
  simp only at ha hlog hlt
  have hx0 : x.toNat ≠ 0 := fun h => ha (BitVec.eq_of_toNat_eq (by simpa using h))
  have key : x &&& mask = 0#64 ↔ x.toNat < 2 ^ s := by
    constructor
    · intro h
      apply (bitsLt_iff x s).1
      intro i hi
      by_cases h2 : i < 2 * s
      · have h3 : (x &&& mask).getLsbD i = false := by rw [h]; simp
        rw [BitVec.getLsbD_and, hmask i (by omega)] at h3
        simpa [hi, h2] using h3
      · exact (bitsLt_iff x (2*s)).2 hlt i (by omega)
    · intro h
      apply BitVec.eq_of_getLsbD_eq
      intro i hi
      rw [BitVec.getLsbD_and, hmask i hi]
      by_cases h2 : s ≤ i
      · rw [(bitsLt_iff x s).2 h i h2]; simp
      · simp [h2]
  unfold gf2xDegStep
  by_cases hc : x &&& mask = 0#64
  · simp only [hc, ne_eq, not_true_eq_false, if_false]
    exact ⟨ha, hlog, key.1 hc⟩
  · simp only [ne_eq, hc, not_false_eq_true, if_true]
    have hge : 2 ^ s ≤ x.toNat := by
      by_contra h; exact hc (key.2 (by omega))
    have hsh : (x >>> s).toNat = x.toNat / 2 ^ s := by
      rw [BitVec.toNat_ushiftRight, Nat.shiftRight_eq_div_pow]
    have hpos : 0 < x.toNat / 2 ^ s := Nat.div_pos hge (by positivity)
    refine ⟨?_, ?_, ?_⟩
    · intro h
      have := congrArg BitVec.toNat h
      rw [hsh] at this
      simp at this
      omega
    · rw [hsh, hlog]
      have h1 : Nat.log2 (x.toNat / 2 ^ s) + s = Nat.log2 x.toNat := by
        have hle : s ≤ Nat.log2 x.toNat := (Nat.le_log2 hx0).2 hge
        apply le_antisymm
        · rw [Nat.le_log2 hx0]
          have := Nat.log2_self_le hpos.ne'
          calc 2 ^ (Nat.log2 (x.toNat / 2 ^ s) + s) = 2 ^ (Nat.log2 (x.toNat / 2 ^ s)) * 2 ^ s := pow_add _ _ _
            _ ≤ (x.toNat / 2 ^ s) * 2 ^ s := Nat.mul_le_mul_right _ this
            _ ≤ x.toNat := Nat.div_mul_le_self _ _
        · have h2 : Nat.log2 x.toNat - s ≤ Nat.log2 (x.toNat / 2 ^ s) := by
            rw [Nat.le_log2 hpos.ne', Nat.le_div_iff_mul_le (by positivity), ← pow_add,
              Nat.sub_add_cancel hle]
            exact Nat.log2_self_le hx0
          omega
      omega
    · rw [hsh, Nat.div_lt_iff_lt_mul (by positivity), ← pow_add, ← two_mul]; exact hlt

theorem gf2xDeg_eq_log2 (a : Word) (h : a ≠ 0#64) : gf2xDeg a = Nat.log2 a.toNat := by
  have m32 : ∀ i, i < 64 → (0xffffffff00000000#64 : Word).getLsbD i = decide (32 ≤ i ∧ i < 2 * 32) := by decide
  have m16 : ∀ i, i < 64 → (0xffff0000#64 : Word).getLsbD i = decide (16 ≤ i ∧ i < 2 * 16) := by decide
  have m8 : ∀ i, i < 64 → (0xff00#64 : Word).getLsbD i = decide (8 ≤ i ∧ i < 2 * 8) := by decide
  have m4 : ∀ i, i < 64 → (0xf0#64 : Word).getLsbD i = decide (4 ≤ i ∧ i < 2 * 4) := by decide
  have m2 : ∀ i, i < 64 → (0xc#64 : Word).getLsbD i = decide (2 ≤ i ∧ i < 2 * 2) := by decide
  have m1 : ∀ i, i < 64 → (0x2#64 : Word).getLsbD i = decide (1 ≤ i ∧ i < 2 * 1) := by decide
  obtain ⟨a1, b1, c1⟩ := gf2xDegStep_inv _ 32 (by omega) (by omega) m32 a (0, a) h (by simp) a.isLt
  obtain ⟨a2, b2, c2⟩ := gf2xDegStep_inv _ 16 (by omega) (by omega) m16 a _ a1 b1 c1
  obtain ⟨a3, b3, c3⟩ := gf2xDegStep_inv _ 8 (by omega) (by omega) m8 a _ a2 b2 c2
  obtain ⟨a4, b4, c4⟩ := gf2xDegStep_inv _ 4 (by omega) (by omega) m4 a _ a3 b3 c3
  obtain ⟨a5, b5, c5⟩ := gf2xDegStep_inv _ 2 (by omega) (by omega) m2 a _ a4 b4 c4
  obtain ⟨a6, b6, c6⟩ := gf2xDegStep_inv _ 1 (by omega) (by omega) m1 a _ a5 b5 c5
  unfold gf2xDeg
  rw [b6]
  have hne : ∀ y : Word, y ≠ 0#64 → y.toNat < 2 ^ 1 → Nat.log2 y.toNat = 0 := by
    intro y _ h2
    have h2 : y.toNat = 0 ∨ y.toNat = 1 := by omega
    rcases h2 with h2 | h2 <;> rw [h2] <;> decide
  rw [hne _ a6 c6]; rfl

theorem gf2xDeg_zero : gf2xDeg 0#64 = 0 := by decide

theorem gf2xDeg_top (a : Word) (h : a ≠ 0#64) : a.getLsbD (gf2xDeg a) = true := by
  rw [gf2xDeg_eq_log2 a h]
  have hx0 : a.toNat ≠ 0 := fun h' => h (BitVec.eq_of_toNat_eq (by simpa using h'))
  simp only [BitVec.getLsbD]
  exact Nat.testBit_log2 hx0

theorem gf2xDeg_bits (a : Word) : BitsLt a (gf2xDeg a + 1) := by
  rw [bitsLt_iff]
  by_cases h : a = 0#64
  · subst h; simp
  · rw [gf2xDeg_eq_log2 a h]; exact Nat.lt_log2_self

theorem gf2xDeg_lt (a : Word) : gf2xDeg a < 64 := by
  by_cases h : a = 0#64
  · subst h; decide
  · by_contra hc
    have := gf2xDeg_top a h
    rw [BitVec.getLsbD_of_ge a _ (by omega)] at this
    exact absurd this (by simp)

theorem gf2xDeg_natDegree (a : Word) : gf2xDeg a = (toPoly a).natDegree := by
  by_cases h : a = 0#64
  · subst h; simp [gf2xDeg_zero]
  · symm
    apply natDegree_eq_of_le_of_coeff_ne_zero
    · have := (degree_toPoly_lt_iff a _).2 (gf2xDeg_bits a)
      have h0 : toPoly a ≠ 0 := fun h' => h ((toPoly_eq_zero_iff a).1 h')
      exact Nat.lt_succ_iff.1 ((natDegree_lt_iff_degree_lt h0).2 (by exact_mod_cast this))
    · rw [toPoly_coeff, gf2xDeg_top a h]; simp

theorem gf2xDeg_degree (a : Word) (h : a ≠ 0#64) : (toPoly a).degree = (gf2xDeg a : ℕ) := by
  rw [gf2xDeg_natDegree]
  exact degree_eq_natDegree (fun h' => h ((toPoly_eq_zero_iff a).1 h'))

/-! ### division loop -/

theorem shift_one_bit (a : Word) (k : Nat) (h : BitsLt a (k + 1)) :
    (a >>> k).toNat < 2 ∧ (a >>> k).getLsbD 0 = a.getLsbD k := by
  constructor
  · have : BitsLt (a >>> k) 1 := by
      intro j hj
      rw [BitVec.getLsbD_ushiftRight]
      exact h _ (by omega)
    simpa using (bitsLt_iff _ _).1 this
  · rw [BitVec.getLsbD_ushiftRight]; simp

/-- invariant of the division loop -/
theorem gf2xDivLoop_inv (b : Word) (hb : b ≠ 0#64) (a0 : (ZMod 2)[X]) :
    ∀ (n : Nat) (a res : Word), gf2xDeg b + n ≤ 64 → BitsLt a (gf2xDeg b + n) →
      (∀ i, i < n → res.getLsbD i = false) →
      a0 = toPoly res * toPoly b + toPoly a →
      (let s := gf2xDivLoop b (gf2xDeg b) n (a, res)
       a0 = toPoly s.2 * toPoly b + toPoly s.1 ∧ BitsLt s.1 (gf2xDeg b)) := by
  intro n
  induction n with
  | zero => intro a res _ hbits _ h; simp only [gf2xDivLoop]; exact ⟨h, by simpa using hbits⟩
  | succ n ih =>
    intro a res hn hbits hres h
    obtain ⟨hs1, hs2⟩ := shift_one_bit a (gf2xDeg b + n) (by simpa [Nat.add_assoc] using hbits)
    simp only [gf2xDivLoop, mask_and _ _ hs1, hs2]
    by_cases hc : a.getLsbD (gf2xDeg b + n)
    · simp only [hc, if_true]
      apply ih
      · omega
      · intro i hi
        rw [BitVec.getLsbD_xor, BitVec.getLsbD_shiftLeft]
        by_cases hi2 : i = gf2xDeg b + n
        · subst hi2
          have : gf2xDeg b + n - n = gf2xDeg b := by omega
          rw [hc, this, gf2xDeg_top b hb]
          have h1 : gf2xDeg b + n < 64 := by omega
          simp [h1]
        · rw [hbits i (by omega), gf2xDeg_bits b (i - n) (by omega)]; simp
      · intro i hi
        rw [BitVec.getLsbD_or, hres i (by omega), getLsbD_twoPow]
        have : n ≠ i := by omega
        simp [this]
      · have hor : res ||| twoPow n = res ^^^ twoPow n := by
          apply BitVec.eq_of_getLsbD_eq
          intro i hi
          rw [BitVec.getLsbD_or, BitVec.getLsbD_xor, getLsbD_twoPow]
          by_cases hin : n = i
          · subst hin; rw [hres n (by omega)]; simp
          · simp [hin]
        rw [hor, toPoly_xor, toPoly_xor, toPoly_twoPow n (by omega),
          toPoly_shiftLeft b n (gf2xDeg b + 1) (gf2xDeg_bits b) (by omega), h]
        have h2 : toPoly b * X ^ n + toPoly b * X ^ n = 0 := CharTwo.add_self_eq_zero _
        linear_combination (-1 : (ZMod 2)[X]) * h2
    · simp only [hc]
      simp only [Bool.false_eq_true, if_false, BitVec.xor_zero, BitVec.or_zero]
      apply ih
      · omega
      · intro i hi
        by_cases hi2 : i = gf2xDeg b + n
        · subst hi2; simpa using hc
        · exact hbits i (by omega)
      · intro i hi; exact hres i (by omega)
      · exact h

theorem gf2xModLoop_eq (b : Word) (db : Nat) : ∀ (n : Nat) (a res : Word),
    gf2xModLoop b db n a = (gf2xDivLoop b db n (a, res)).1 := by
  intro n
  induction n with
  | zero => intro a res; rfl
  | succ n ih => intro a res; rw [gf2xModLoop, gf2xDivLoop]; exact ih _ _

theorem gf2xDivmod_spec (a b : Word) (hb : b ≠ 0#64) :
    toPoly a = toPoly (gf2xDivmod a b).1 * toPoly b + toPoly (gf2xDivmod a b).2 ∧
    (toPoly (gf2xDivmod a b).2).degree < (toPoly b).degree := by
  have h := gf2xDivLoop_inv b hb (toPoly a) (gf2xDeg a + 1 - gf2xDeg b) a 0#64
    (by have := gf2xDeg_lt a; have := gf2xDeg_lt b; omega)
    (by intro i hi; exact gf2xDeg_bits a i (by omega))
    (by intro i _; simp) (by simp)
  have e1 : (gf2xDivmod a b).1 =
    (gf2xDivLoop b (gf2xDeg b) (gf2xDeg a + 1 - gf2xDeg b) (a, 0#64)).2 := by unfold gf2xDivmod; rfl
  have e2 : (gf2xDivmod a b).2 =
    (gf2xDivLoop b (gf2xDeg b) (gf2xDeg a + 1 - gf2xDeg b) (a, 0#64)).1 := by unfold gf2xDivmod; rfl
  rw [e1, e2]
  refine ⟨h.1, ?_⟩
  rw [gf2xDeg_degree b hb, degree_toPoly_lt_iff]
  exact h.2

theorem gf2xMod_eq (a b : Word) : gf2xMod a b = (gf2xDivmod a b).2 := by
  unfold gf2xMod gf2xDivmod
  exact gf2xModLoop_eq b _ _ a 0#64

theorem gf2xDiv_eq (a b : Word) : gf2xDiv a b = (gf2xDivmod a b).1 := rfl

end M4rie
