import Verif.Proofs.T16
import Verif.Proofs.MzedOps

namespace M4rie
open M4rie.Spec Polynomial

theorem lane_shl_multi {w : Nat} (hw : OkW w) (x : Word) (m k : Nat) (hk : k < 64 / w) :
    laneVal w (x <<< (m * w)) k = if m ≤ k then laneVal w x (k - m) else 0#64 := by
  have hl := hw.le
  have h2 := hw.lane_le hk
  apply word_ext; intro i hi
  rw [getLsbD_lane _ _ _ _ (by omega), BitVec.getLsbD_shiftLeft]
  by_cases hiw : i < w
  · have h3 : k * w + i < 64 := by omega
    by_cases hmk : m ≤ k
    · have h4 : m * w ≤ k * w := Nat.mul_le_mul_right _ hmk
      rw [if_pos hmk, getLsbD_lane _ _ _ _ (by omega), Nat.sub_mul]
      have h5 : ¬ k * w + i < m * w := by omega
      simp only [hiw, h3, h5, decide_true, decide_false, Bool.true_and, Bool.not_false]
      congr 1; omega
    · have h4 : (k + 1) * w ≤ m * w := Nat.mul_le_mul_right _ (by omega)
      have h6 : (k+1)*w = k*w + w := by ring
      have h5 : k * w + i < m * w := by omega
      simp [hmk, h5]
  · split_ifs
    · rw [getLsbD_lane _ _ _ _ (by omega)]; simp [hiw]
    · simp [hiw]

theorem mask16_bits (i : Nat) (hi : i < 64) : (twoPow 16 - 1#64).getLsbD i = decide (i < 16) := by
  rw [show twoPow 16 - 1#64 = lowMask 16 by decide]; exact getLsbD_lowMask 16 i hi

theorem OkW.n16 {w : Nat} (hw : OkW w) : 16 / w * w = 16 := by rcases hw with rfl | rfl | rfl | rfl <;> rfl
theorem OkW.n64 {w : Nat} (hw : OkW w) : 64 / w = 4 * (16 / w) := by rcases hw with rfl | rfl | rfl | rfl <;> rfl

theorem chunk_lane {w : Nat} (hw : OkW w) (tmp : Word) (c k : Nat) (hk : k < 16 / w) :
    laneVal w ((tmp >>> (16 * c)) &&& (twoPow 16 - 1#64)) k = laneVal w tmp (k + c * (16 / w)) := by
  have hl := hw.le
  have hk' : k * w + w ≤ 16 := by
    have h := hw.n16
    calc k * w + w = (k + 1) * w := by ring
      _ ≤ (16 / w) * w := Nat.mul_le_mul_right _ hk
      _ = 16 := h
  rw [lane_and_mask w _ _ k (by omega) true]
  · rw [if_pos rfl, show 16 * c = (c * (16 / w)) * w by rw [Nat.mul_assoc, hw.n16, Nat.mul_comm], lane_ushr _ _ _ _ (by omega)]
  · intro i hi
    rw [mask16_bits _ (by omega)]; simp; omega

theorem chunk_lt (tmp : Word) (c : Nat) : ((tmp >>> (16 * c)) &&& (twoPow 16 - 1#64)).toNat < 2 ^ 16 := by
  rw [← bitsLt_iff]
  intro i hi
  rw [BitVec.getLsbD_and]
  by_cases h : i < 64
  · rw [mask16_bits i h]; simp; omega
  · simp [BitVec.getLsbD_of_ge _ _ (by omega : 64 ≤ i)]

theorem scalarWord_lane {w : Nat} (hw : OkW w) (mul : Nat → Word) (g : Word → Word) (tmp : Word)
    (hmul : ∀ i : Word, i.toNat < 2 ^ 16 → (∀ k, k < 16 / w → ∃ k', k' < 64 / w ∧ laneVal w i k = laneVal w tmp k') →
      ∀ k, k < 64 / w → laneVal w (mul i.toNat) k = if k < 16 / w then g (laneVal w i k) else 0#64)
    (k : Nat) (hk : k < 64 / w) :
    laneVal w (scalarWord mul tmp) k = g (laneVal w tmp k) := by
  have hl := hw.le
  have hn := hw.n64
  have h16 := hw.n16
  unfold scalarWord
  simp only []
  have key : ∀ c, c < 4 → ∀ k, k < 64 / w →
      laneVal w (mul ((tmp >>> (16 * c)) &&& (twoPow 16 - 1#64)).toNat <<< (16 * c)) k =
        if c * (16 / w) ≤ k ∧ k < (c + 1) * (16 / w) then g (laneVal w tmp k) else 0#64 := by
    intro c hc k hk
    have e : 16 * c = (c * (16 / w)) * w := by rw [Nat.mul_assoc, h16, Nat.mul_comm]
    have hm := hmul _ (chunk_lt tmp c) (fun k hk => ⟨k + c * (16 / w), by
      have : (c + 1) * (16 / w) ≤ 4 * (16 / w) := Nat.mul_le_mul_right _ (by omega)
      rw [hn]; have h4 : (c + 1) * (16 / w) = c * (16 / w) + 16 / w := by ring
      omega, chunk_lane hw tmp c k hk⟩)
    conv_lhs => rw [show laneVal w (mul ((tmp >>> (16 * c)) &&& (twoPow 16 - 1#64)).toNat <<< (16 * c)) k =
      laneVal w (mul ((tmp >>> (16 * c)) &&& (twoPow 16 - 1#64)).toNat <<< ((c * (16 / w)) * w)) k by rw [← e]]
    rw [lane_shl_multi hw _ _ _ hk]
    have h4 : (c + 1) * (16 / w) = c * (16 / w) + 16 / w := by ring
    by_cases h1 : c * (16 / w) ≤ k
    · rw [if_pos h1, hm _ (by omega)]
      by_cases h2 : k - c * (16 / w) < 16 / w
      · rw [if_pos h2, if_pos (by omega), chunk_lane hw _ _ _ h2, Nat.sub_add_cancel h1]
      · rw [if_neg h2, if_neg (by omega)]
    · rw [if_neg h1, if_neg (by omega)]
  have k0 := key 0 (by omega) k hk
  have k1 := key 1 (by omega) k hk
  have k2 := key 2 (by omega) k hk
  have k3 := key 3 (by omega) k hk
  simp only [Nat.mul_zero, BitVec.shiftLeft_zero, BitVec.ushiftRight_zero, Nat.mul_one, Nat.reduceMul] at k0 k1 k2 k3
  simp only [lane_or _ _ _ _ (by omega : w ≤ 64)]
  rw [k0, k1, k2, k3]
  generalize 16 / w = n at *
  by_cases c0 : k < n
  · simp [c0, show ¬ n ≤ k by omega, show ¬ 2 * n ≤ k by omega, show ¬ 3 * n ≤ k by omega]
  by_cases c1 : k < 2 * n
  · simp [c0, c1, show n ≤ k by omega, show ¬ 2 * n ≤ k by omega, show ¬ 3 * n ≤ k by omega]
  by_cases c2 : k < 3 * n
  · simp [c0, c1, c2, show 2 * n ≤ k by omega, show ¬ 3 * n ≤ k by omega]
  · simp [c0, c1, c2, show 3 * n ≤ k by omega, show k < 4 * n by omega]

theorem setWord_loop (f : Nat → Word) : ∀ n (c : Nat → Word) i,
    forN (fun j c => setWord c j (f j)) n c i = if i < n then f i else c i := by
  intro n
  induction n with
  | zero => intro c i; simp [forN]
  | succ n ih =>
    intro c i
    rw [forN, setWord, ih]
    by_cases h : i = n
    · subst h; simp
    · have : i < n ↔ i < n + 1 := by omega
      simp [h, this]

theorem scalarRow_lane {w : Nat} (hw : OkW w) (mul : Nat → Word) (g : Word → Word) (n : Nat) (hn : 0 < n) (b c : Nat → Word)
    (g0 : g 0#64 = 0#64)
    (hmul : ∀ tmp : Word, ((∃ q, tmp = b q) ∨ ∃ q, tmp = b q &&& leftBitmask (w * n % 64)) →
      ∀ k, k < 64 / w → laneVal w (scalarWord mul tmp) k = g (laneVal w tmp k))
    (q k : Nat) (hk : k < 64 / w) :
    laneVal w (scalarRow mul ((w * n + 63) / 64) (leftBitmask (w * n % 64)) b c q) k =
      if q * (64 / w) + k < n then g (laneVal w (b q) k) else laneVal w (c q) k := by
  have hl := hw.le
  have hlk := hw.lane_le hk
  have h0 : 0 / (64 / w) < q ∨ 0 / (64 / w) = q ∧ 0 % (64 / w) ≤ k := by
    rw [Nat.zero_div, Nat.zero_mod]; omega
  have hrng := in_range_iff hw 0 n q k hk hn
  have pos : _ → (if q * (64 / w) + k < n then g (laneVal w (b q) k) else laneVal w (c q) k) = g (laneVal w (b q) k) :=
    fun h => if_pos (hrng.2 ⟨h0, h⟩).2
  have neg : ¬ _ → (if q * (64 / w) + k < n then g (laneVal w (b q) k) else laneVal w (c q) k) = laneVal w (c q) k :=
    fun h => if_neg (fun h' => h (hrng.1 ⟨Nat.zero_le _, h'⟩).2)
  clear hrng h0
  have hE : ∀ i, i < w → (leftBitmask (w * n % 64)).getLsbD (k * w + i) = decide (n % (64 / w) = 0 ∨ k < n % (64 / w)) :=
    fun i hi => end_lane hw n k i hk hi
  have hwd := start_lt_width hw 0 n hn
  rw [Nat.zero_div] at hwd
  unfold scalarRow
  simp only [hw.width]
  set L := 64 / w
  set W := (n + (L - 1)) / L
  clear_value W
  by_cases hq : q = W - 1
  · subst hq
    simp only [setWord, if_true]
    rw [lane_or _ _ _ _ (by omega), setWord_loop, if_neg (by omega), lane_and_not_mask w _ _ k (by omega) hlk _ hE,
      hmul _ (Or.inr ⟨_, rfl⟩) k hk, lane_and_mask w _ _ k (by omega) _ hE]
    by_cases p2 : n % L = 0 ∨ k < n % L
    · rw [pos (by omega)]; simp [p2]
    · rw [neg (by omega)]; simp [p2, g0]
  · simp only [setWord, if_neg hq]
    rw [setWord_loop]
    by_cases h2 : q < W - 1
    · rw [if_pos h2, hmul _ (Or.inl ⟨_, rfl⟩) k hk, pos (by omega)]
    · rw [if_neg h2, neg (by omega)]

end M4rie
