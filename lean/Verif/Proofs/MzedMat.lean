import Verif.Model.MzedMat
import Verif.Proofs.MzedElem

namespace M4rie
open M4rie.Spec

theorem getLsbD_wordOfBits (f : Nat → Bool) : ∀ n, n ≤ 64 → ∀ i, (wordOfBits f n).getLsbD i = (decide (i < n) && f i) := by
  intro n
  induction n with
  | zero => intro _ i; simp [wordOfBits]
  | succ n ih =>
    intro hn i
    rw [wordOfBits, BitVec.getLsbD_xor, ih (by omega)]
    by_cases hf : f n
    · rw [if_pos hf, getLsbD_twoPow]
      by_cases h1 : i = n
      · subst h1; simp [hf]; omega
      · have h2 : i < n ↔ i < n + 1 := by omega
        have h3 : ¬ n = i := by omega
        simp [h2, h3]
    · rw [if_neg hf]
      by_cases h1 : i = n
      · subst h1; simp [hf]
      · have h2 : i < n ↔ i < n + 1 := by omega
        simp [h2]

theorem bitAt_ofBits (g : Nat → Nat → Bool) (i p : Nat) : bitAt (ofBits g) i p = g i p := by
  unfold bitAt ofBits
  rw [getLsbD_wordOfBits _ 64 le_rfl]
  have : p % 64 < 64 := Nat.mod_lt _ (by norm_num)
  simp only [this, decide_true, Bool.true_and]
  congr 1
  omega

theorem entry_bits {w : Nat} (hw : OkW w) (m : Nat → Nat → Word) (i j q : Nat) (hq : q < w) :
    (entryOf w m i j).getLsbD q = bitAt m i (w * j + q) := by
  unfold entryOf bitAt
  have hl := hw.le
  rw [getLsbD_lane _ _ _ _ (by omega)]
  simp only [hq, decide_true, Bool.true_and]
  have e1 : (w * j + q) / 64 = j / (64 / w) := by
    rcases hw with rfl | rfl | rfl | rfl <;> norm_num <;> omega
  have e2 : (w * j + q) % 64 = j % (64 / w) * w + q := by
    rcases hw with rfl | rfl | rfl | rfl <;> norm_num <;> omega
  rw [e1, e2]

theorem entry_bits_ge {w : Nat} (hw : OkW w) (m : Nat → Nat → Word) (i j q : Nat) (hq : w ≤ q) :
    (entryOf w m i j).getLsbD q = false := by
  have hl := hw.le
  exact getLsbD_eq_false_of_lt (laneVal_lt w _ _ (by omega)) hq

theorem entry_ext {w : Nat} (hw : OkW w) {m : Nat → Nat → Word} {i j : Nat} {v : Word}
    (h : ∀ q, q < w → bitAt m i (w * j + q) = v.getLsbD q) (hv : v.toNat < 2 ^ w) : entryOf w m i j = v := by
  apply word_ext
  intro q _
  by_cases hq : q < w
  · rw [entry_bits hw _ _ _ _ hq]; exact h q hq
  · rw [entry_bits_ge hw _ _ _ _ (by omega), getLsbD_eq_false_of_lt hv (by omega)]

theorem entryOf_lt {w : Nat} (hw : OkW w) (m : Nat → Nat → Word) (i j : Nat) : (entryOf w m i j).toNat < 2 ^ w :=
  laneVal_lt w _ _ (by have := hw.le; omega)

theorem pos_lt {w j q n : Nat} (hq : q < w) : w * j + q < w * n ↔ j < n := by
  constructor
  · intro h
    by_contra hc
    have : w * n ≤ w * j := Nat.mul_le_mul_left _ (by omega)
    omega
  · intro h
    have : w * (j + 1) ≤ w * n := Nat.mul_le_mul_left _ h
    rw [Nat.mul_add] at this; omega

theorem pos_inj {w j q j' q' : Nat} (hq : q < w) (hq' : q' < w) : w * j + q = w * j' + q' ↔ j = j' ∧ q = q' := by
  constructor
  · intro h
    have h1 : j = j' := by
      have e1 : (w * j + q) / w = j := by
        rw [Nat.mul_add_div (by omega), Nat.div_eq_of_lt hq, Nat.add_zero]
      have e2 : (w * j' + q') / w = j' := by
        rw [Nat.mul_add_div (by omega), Nat.div_eq_of_lt hq', Nat.add_zero]
      rw [← e1, ← e2, h]
    subst h1
    exact ⟨rfl, by omega⟩
  · rintro ⟨rfl, rfl⟩; rfl

section
variable {w : Nat} (hw : OkW w)
include hw

theorem mzdAdd_entry (nr n : Nat) (C A B : Nat → Nat → Word) (i j : Nat) :
    entryOf w (mzdAdd nr (w * n) C A B) i j =
      if i < nr ∧ j < n then entryOf w A i j ^^^ entryOf w B i j else entryOf w C i j := by
  apply entry_ext hw
  · intro q hq
    unfold mzdAdd
    rw [bitAt_ofBits]
    simp only [pos_lt hq]
    split_ifs
    · rw [BitVec.getLsbD_xor, entry_bits hw _ _ _ _ hq, entry_bits hw _ _ _ _ hq]
    · rw [entry_bits hw _ _ _ _ hq]
  · split_ifs
    · exact xor_lt_two_pow (entryOf_lt hw _ _ _) (entryOf_lt hw _ _ _)
    · exact entryOf_lt hw _ _ _

theorem mzdCopy_entry (nr n : Nat) (C A : Nat → Nat → Word) (i j : Nat) :
    entryOf w (mzdCopy nr (w * n) C A) i j = if i < nr ∧ j < n then entryOf w A i j else entryOf w C i j := by
  apply entry_ext hw
  · intro q hq
    unfold mzdCopy
    rw [bitAt_ofBits]
    simp only [pos_lt hq]
    split_ifs <;> rw [entry_bits hw _ _ _ _ hq]
  · split_ifs <;> exact entryOf_lt hw _ _ _

theorem mzdClear_entry (nr n : Nat) (A : Nat → Nat → Word) (i j : Nat) :
    entryOf w (mzdClear nr (w * n) A) i j = if i < nr ∧ j < n then 0#64 else entryOf w A i j := by
  apply entry_ext hw
  · intro q hq
    unfold mzdClear
    rw [bitAt_ofBits]
    simp only [pos_lt hq]
    split_ifs
    · simp
    · rw [entry_bits hw _ _ _ _ hq]
  · split_ifs
    · simp
    · exact entryOf_lt hw _ _ _

theorem mzdRowSwap_entry (n : Nat) (M : Nat → Nat → Word) (a b i j : Nat) :
    entryOf w (mzdRowSwap (w * n) M a b) i j =
      if j < n then (if i = a then entryOf w M b j else if i = b then entryOf w M a j else entryOf w M i j)
      else entryOf w M i j := by
  apply entry_ext hw
  · intro q hq
    unfold mzdRowSwap
    rw [bitAt_ofBits]
    simp only [pos_lt hq]
    split_ifs <;> rw [entry_bits hw _ _ _ _ hq]
  · split_ifs <;> exact entryOf_lt hw _ _ _

theorem mzdCopyRow_entry (n : Nat) (B : Nat → Nat → Word) (r : Nat) (A : Nat → Nat → Word) (s i j : Nat) :
    entryOf w (mzdCopyRow (w * n) B r A s) i j = if i = r ∧ j < n then entryOf w A s j else entryOf w B i j := by
  apply entry_ext hw
  · intro q hq
    unfold mzdCopyRow
    rw [bitAt_ofBits]
    simp only [pos_lt hq]
    split_ifs <;> rw [entry_bits hw _ _ _ _ hq]
  · split_ifs <;> exact entryOf_lt hw _ _ _

theorem mzdRowAdd_entry (n : Nat) (M : Nat → Nat → Word) (s d i j : Nat) :
    entryOf w (mzdRowAdd (w * n) M s d) i j =
      if i = d ∧ j < n then entryOf w M d j ^^^ entryOf w M s j else entryOf w M i j := by
  apply entry_ext hw
  · intro q hq
    unfold mzdRowAdd
    rw [bitAt_ofBits]
    simp only [pos_lt hq]
    split_ifs
    · rw [BitVec.getLsbD_xor, entry_bits hw _ _ _ _ hq, entry_bits hw _ _ _ _ hq]
    · rw [entry_bits hw _ _ _ _ hq]
  · split_ifs
    · exact xor_lt_two_pow (entryOf_lt hw _ _ _) (entryOf_lt hw _ _ _)
    · exact entryOf_lt hw _ _ _

/-- swapping the first `e` bit columns of two element columns -/
theorem colSwap_bits (a b start stop : Nat) (m : Nat → Nat → Word) : ∀ e, e ≤ w → ∀ i j q, q < w →
    bitAt (forN (fun k m => mzdColSwapInRows m (w * a + k) (w * b + k) start stop) e m) i (w * j + q) =
      if (start ≤ i ∧ i < stop) ∧ q < e then
        (if j = a then bitAt m i (w * b + q) else if j = b then bitAt m i (w * a + q) else bitAt m i (w * j + q))
      else bitAt m i (w * j + q) := by
  intro e
  induction e with
  | zero => intro _ i j q _; simp [forN]
  | succ e ih =>
    intro he i j q hq
    rw [forN, mzdColSwapInRows, bitAt_ofBits]
    have he' : e < w := by omega
    simp only [pos_inj hq he', ih (by omega) _ _ _ hq, ih (by omega) _ _ _ he']
    by_cases hr : start ≤ i ∧ i < stop
    · simp only [hr, if_true, true_and, lt_self_iff_false, if_false, and_self]
      by_cases hqe : q = e
      · subst hqe
        simp
      · have : q < e ↔ q < e + 1 := by omega
        simp [hqe, this]
    · simp [hr]

theorem mzdConcat_entry (nr na nb : Nat) (C A B : Nat → Nat → Word) (i j : Nat) :
    entryOf w (mzdConcat nr (w * na) (w * nb) C A B) i j =
      if i < nr ∧ j < na then entryOf w A i j else if i < nr ∧ j < na + nb then entryOf w B i (j - na)
      else entryOf w C i j := by
  apply entry_ext hw
  · intro q hq
    unfold mzdConcat
    rw [bitAt_ofBits, ← Nat.mul_add]
    simp only [pos_lt hq]
    split_ifs with h1 h2
    · rw [entry_bits hw _ _ _ _ hq]
    · rw [entry_bits hw _ _ _ _ hq]
      have : na ≤ j := by omega
      congr 1
      rw [Nat.mul_sub]
      have : w * na ≤ w * j := Nat.mul_le_mul_left _ this
      omega
    · rw [entry_bits hw _ _ _ _ hq]
  · split_ifs <;> exact entryOf_lt hw _ _ _

theorem mzdStack_entry (ra rb n : Nat) (C A B : Nat → Nat → Word) (i j : Nat) :
    entryOf w (mzdStack ra rb (w * n) C A B) i j =
      if i < ra ∧ j < n then entryOf w A i j else if i < ra + rb ∧ j < n then entryOf w B (i - ra) j
      else entryOf w C i j := by
  apply entry_ext hw
  · intro q hq
    unfold mzdStack
    rw [bitAt_ofBits]
    simp only [pos_lt hq]
    split_ifs <;> rw [entry_bits hw _ _ _ _ hq]
  · split_ifs <;> exact entryOf_lt hw _ _ _

theorem mzdSubmatrix_entry (S M : Nat → Nat → Word) (lr lc hr hc i j : Nat) :
    entryOf w (mzdSubmatrix S M lr (lc * w) hr (hc * w)) i j =
      if i < hr - lr ∧ j < hc - lc then entryOf w M (lr + i) (lc + j) else entryOf w S i j := by
  apply entry_ext hw
  · intro q hq
    unfold mzdSubmatrix
    rw [bitAt_ofBits, ← Nat.sub_mul, Nat.mul_comm _ w]
    simp only [pos_lt hq]
    split_ifs
    · rw [entry_bits hw _ _ _ _ hq]
      congr 1
      ring
    · rw [entry_bits hw _ _ _ _ hq]
  · split_ifs <;> exact entryOf_lt hw _ _ _

theorem mzdWindow_entry (M : Nat → Nat → Word) (lr lc i j : Nat) (hlc : w * lc % 64 = 0) :
    entryOf w (mzdWindow M lr (w * lc)) i j = entryOf w M (lr + i) (lc + j) := by
  unfold entryOf mzdWindow
  rw [hw.spot_zero] at hlc
  rw [hw.block]
  have h : lc = lc / (64 / w) * (64 / w) := by
    have := Nat.div_add_mod' lc (64 / w); omega
  have e1 : (lc + j) / (64 / w) = lc / (64 / w) + j / (64 / w) := by
    conv_lhs => rw [h, Nat.mul_comm, Nat.mul_add_div hw.lpos]
  have e2 : (lc + j) % (64 / w) = j % (64 / w) := by
    conv_lhs => rw [h, Nat.mul_comm, Nat.mul_add_mod]
  rw [e1, e2]

theorem mzdWindowWrite_entry (M v : Nat → Nat → Word) (lr lc i j : Nat) (hlc : w * lc % 64 = 0) :
    entryOf w (mzdWindowWrite M lr (w * lc) v) i j =
      if lr ≤ i ∧ lc ≤ j then entryOf w v (i - lr) (j - lc) else entryOf w M i j := by
  unfold entryOf mzdWindowWrite
  rw [hw.spot_zero] at hlc
  rw [hw.block]
  have hc : lc / (64 / w) ≤ j / (64 / w) ↔ lc ≤ j := by
    rcases hw with rfl | rfl | rfl | rfl <;> norm_num at hlc ⊢ <;> omega
  simp only [hc]
  split_ifs with h
  · have e1 : j / (64 / w) - lc / (64 / w) = (j - lc) / (64 / w) := by
      rcases hw with rfl | rfl | rfl | rfl <;> norm_num at hlc ⊢ <;> omega
    have e2 : j % (64 / w) = (j - lc) % (64 / w) := by
      rcases hw with rfl | rfl | rfl | rfl <;> norm_num at hlc ⊢ <;> omega
    rw [e1, e2]
  · rfl

theorem mzdEq_iff (nr n : Nat) (A B : Nat → Nat → Word) :
    mzdEq nr (w * n) A B = true ↔ ∀ i j, i < nr → j < n → entryOf w A i j = entryOf w B i j := by
  unfold mzdEq
  simp only [List.all_eq_true, List.mem_range, beq_iff_eq]
  constructor
  · intro h i j hi hj
    apply entry_ext hw _ (entryOf_lt hw _ _ _)
    intro q hq
    rw [entry_bits hw _ _ _ _ hq]
    exact h i hi _ ((pos_lt hq).2 hj)
  · intro h i hi p hp
    have hq : p % w < w := Nat.mod_lt _ hw.pos
    have hp' : p = w * (p / w) + p % w := (Nat.div_add_mod p w).symm
    rw [hp'] at hp ⊢
    rw [← entry_bits hw _ _ _ _ hq, ← entry_bits hw _ _ _ _ hq, h i _ hi ((pos_lt hq).1 hp)]

theorem rowZero_iff (n : Nat) (A : Nat → Nat → Word) (i : Nat) :
    ((List.range (w * n)).all fun p => !bitAt A i p) = true ↔ ∀ j, j < n → entryOf w A i j = 0#64 := by
  simp only [List.all_eq_true, List.mem_range, Bool.not_eq_true']
  constructor
  · intro h j hj
    apply entry_ext hw _ (by simp)
    intro q hq
    rw [h _ ((pos_lt hq).2 hj)]; simp
  · intro h p hp
    have hq : p % w < w := Nat.mod_lt _ hw.pos
    have hp' : p = w * (p / w) + p % w := (Nat.div_add_mod p w).symm
    rw [hp'] at hp ⊢
    rw [← entry_bits hw _ _ _ _ hq, h _ ((pos_lt hq).1 hp)]; simp

theorem mzdIsZero_iff (nr n : Nat) (A : Nat → Nat → Word) :
    mzdIsZero nr (w * n) A = true ↔ ∀ i j, i < nr → j < n → entryOf w A i j = 0#64 := by
  unfold mzdIsZero
  rw [List.all_eq_true]
  simp only [List.mem_range, rowZero_iff hw n A]
  exact ⟨fun h i j hi hj => h i hi j hj, fun h i hi j hj => h i j hi hj⟩

theorem mzdFirstZeroRow_spec (n : Nat) (A : Nat → Nat → Word) : ∀ nr,
    mzdFirstZeroRow (w * n) A nr ≤ nr ∧
    (∀ i, mzdFirstZeroRow (w * n) A nr ≤ i → i < nr → ∀ j, j < n → entryOf w A i j = 0#64) ∧
    (0 < mzdFirstZeroRow (w * n) A nr → ∃ j, j < n ∧ entryOf w A (mzdFirstZeroRow (w * n) A nr - 1) j ≠ 0#64) := by
  intro nr
  induction nr with
  | zero => exact ⟨le_rfl, fun i h1 h2 => absurd h2 (by omega), fun h => absurd h (by simp [mzdFirstZeroRow])⟩
  | succ nr ih =>
    rw [mzdFirstZeroRow]
    by_cases h : ((List.range (w * n)).all fun p => !bitAt A nr p) = true
    · rw [if_pos h]
      rw [rowZero_iff hw] at h
      refine ⟨by omega, ?_, ih.2.2⟩
      intro i h1 h2
      by_cases hi : i = nr
      · subst hi; exact h
      · exact ih.2.1 i h1 (by omega)
    · rw [if_neg h]
      refine ⟨le_rfl, fun i h1 h2 => absurd h2 (by omega), fun _ => ?_⟩
      rw [rowZero_iff hw] at h
      push Not at h
      simpa using h
end

end M4rie
