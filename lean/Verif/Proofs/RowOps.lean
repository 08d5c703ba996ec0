import Verif.Proofs.LaneRun

namespace M4rie
open M4rie.Spec

section arith
variable {w : Nat} (hw : OkW w)
include hw
theorem OkW.block (s : Nat) : w * s / 64 = s / (64 / w) := by
  rcases hw with rfl | rfl | rfl | rfl <;> norm_num <;> omega
theorem OkW.spot (s : Nat) : w * s % 64 = (s % (64 / w)) * w := by
  rcases hw with rfl | rfl | rfl | rfl <;> norm_num <;> omega
theorem OkW.case (s : Nat) : w * s / w % (64 / w) = s % (64 / w) := by
  rw [Nat.mul_div_cancel_left _ hw.pos]
theorem OkW.width (n : Nat) : (w * n + 63) / 64 = (n + (64 / w - 1)) / (64 / w) := by
  rcases hw with rfl | rfl | rfl | rfl <;> norm_num <;> omega

theorem OkW.spot_zero (n : Nat) : w * n % 64 = 0 ↔ n % (64 / w) = 0 := by
  rcases hw with rfl | rfl | rfl | rfl <;> norm_num <;> omega

/-- lanes of `bitmask_begin` -/
theorem begin_lane (s k i : Nat) (hk : k < 64 / w) (hi : i < w) :
    (rightBitmask (64 - w * s % 64)).getLsbD (k * w + i) = decide (s % (64 / w) ≤ k) := by
  have h1 := hw.lane_le hk
  have h2 : w * s % 64 < 64 := Nat.mod_lt _ (by norm_num)
  rw [getLsbD_rightBitmask _ _ (by omega) (by omega), show 64 - (64 - w * s % 64) = w * s % 64 by omega, hw.spot]
  congr 1
  apply propext
  constructor
  · intro h
    by_contra hc
    have : (k + 1) * w ≤ (s % (64 / w)) * w := Nat.mul_le_mul_right _ (by omega)
    have h4 : (k+1)*w = k*w + w := by ring
    omega
  · intro h
    have : (s % (64 / w)) * w ≤ k * w := Nat.mul_le_mul_right _ h
    omega

/-- lanes of `bitmask_end` -/
theorem end_lane (n k i : Nat) (hk : k < 64 / w) (hi : i < w) :
    (leftBitmask (w * n % 64)).getLsbD (k * w + i) = decide (n % (64 / w) = 0 ∨ k < n % (64 / w)) := by
  have h1 := hw.lane_le hk
  have h2 : w * n % 64 < 64 := Nat.mod_lt _ (by norm_num)
  rw [getLsbD_leftBitmask _ _ h2 (by omega)]
  rw [Bool.eq_iff_iff]
  simp only [Bool.or_eq_true, decide_eq_true_eq]
  rw [hw.spot_zero, hw.spot]
  constructor
  · rintro (h | h)
    · exact Or.inl h
    · right
      by_contra hc
      have : (n % (64 / w)) * w ≤ k * w := Nat.mul_le_mul_right _ (by omega)
      omega
  · rintro (h | h)
    · exact Or.inl h
    · right
      have : (k + 1) * w ≤ (n % (64 / w)) * w := Nat.mul_le_mul_right _ (by omega)
      have h4 : (k+1)*w = k*w + w := by ring
      omega
end arith

theorem laneRun_congr (mul : Word → Word) {w : Nat} : ∀ (ops ops' : List LaneOp) (s : Nat) (v t : Word),
    opsOk w s ops = true → opsOk w s ops' = true → laneRun mul ops v t = laneRun mul ops' v t := by
  intro ops
  induction ops with
  | nil =>
    intro ops' s v t h h'
    have h1 := opsOk_le _ _ h
    have h2 := opsOk_le _ _ h'
    have : ops' = [] := List.length_eq_zero_iff.1 (by simp at h1; omega)
    rw [this]
  | cons op ops ih =>
    intro ops' s v t h h'
    have h1 := opsOk_le _ _ h
    have h2 := opsOk_le _ _ h'
    cases ops' with
    | nil => simp at h1 h2; omega
    | cons op' ops' =>
      simp only [List.length_cons] at h1 h2
      simp only [opsOk, Bool.and_eq_true, beq_iff_eq, Bool.or_eq_true, List.isEmpty_iff] at h h'
      simp only [laneRun]
      rw [h.1.1.1, h'.1.1.1, h.1.1.2, h'.1.1.2]
      rcases h.1.2 with he | he
      · have : ops' = [] := List.length_eq_zero_iff.1 (by rw [he] at h1; simp at h1; omega)
        rw [he, this]; rfl
      · rcases h'.1.2 with he' | he'
        · have : ops = [] := List.length_eq_zero_iff.1 (by rw [he'] at h2; simp at h2; omega)
          rw [he', this]; rfl
        · rw [he, he']
          exact ih _ (s + 1) _ _ h.2 h'.2

section ops
variable {w : Nat} (hw : OkW w)
include hw

/-- lane `k` of word `b` holds position `b*L+k`; which positions lie in `[s, n)`. -/
theorem in_range_iff (s n b k : Nat) (hk : k < 64 / w) (hs : s < n) :
    (s ≤ b * (64 / w) + k ∧ b * (64 / w) + k < n) ↔
      ((s / (64 / w) < b ∨ (s / (64 / w) = b ∧ s % (64 / w) ≤ k)) ∧
       (b < (n + (64 / w - 1)) / (64 / w) - 1 ∨
        (b = (n + (64 / w - 1)) / (64 / w) - 1 ∧ (n % (64 / w) = 0 ∨ k < n % (64 / w))))) := by
  rcases hw with rfl | rfl | rfl | rfl <;> norm_num at hk ⊢ <;> omega

theorem range_pos (s n b k : Nat) (hk : k < 64 / w) (hs : s < n) (X Y : Word)
    (h : (s / (64 / w) < b ∨ (s / (64 / w) = b ∧ s % (64 / w) ≤ k)) ∧
       (b < (n + (64 / w - 1)) / (64 / w) - 1 ∨
        (b = (n + (64 / w - 1)) / (64 / w) - 1 ∧ (n % (64 / w) = 0 ∨ k < n % (64 / w))))) :
    (if s ≤ b * (64 / w) + k ∧ b * (64 / w) + k < n then X else Y) = X :=
  if_pos ((in_range_iff hw s n b k hk hs).2 h)

theorem range_neg (s n b k : Nat) (hk : k < 64 / w) (hs : s < n) (X Y : Word)
    (h : ¬ ((s / (64 / w) < b ∨ (s / (64 / w) = b ∧ s % (64 / w) ≤ k)) ∧
       (b < (n + (64 / w - 1)) / (64 / w) - 1 ∨
        (b = (n + (64 / w - 1)) / (64 / w) - 1 ∧ (n % (64 / w) = 0 ∨ k < n % (64 / w)))))) :
    (if s ≤ b * (64 / w) + k ∧ b * (64 / w) + k < n then X else Y) = Y :=
  if_neg (mt (in_range_iff hw s n b k hk hs).1 h)

theorem start_lt_width (s n : Nat) (hs : s < n) : s / (64 / w) < (n + (64 / w - 1)) / (64 / w) := by
  rcases hw with rfl | rfl | rfl | rfl <;> norm_num <;> omega

theorem last_case (n : Nat) {code : LaneCode} (hc : CodeOk w code) :
    lastOk w (if n % (64 / w) = 0 then 64 / w else n % (64 / w)) (fromCase (w * n % 64) code.last) = true := by
  rw [hw.spot]
  exact hc.last _ (Nat.mod_lt _ hw.lpos)

theorem rescaleWords_lane (mul : Word → Word) {code : LaneCode} (hc : CodeOk w code) (n s : Nat) (hs : s < n)
    (a : Nat → Word) (hm : ∀ b k, k < 64 / w → (mul (laneVal w (a b) k)).toNat < 2 ^ w) (b k : Nat) (hk : k < 64 / w) :
    laneVal w (rescaleWords mul code w n s a b) k =
      if s ≤ b * (64 / w) + k ∧ b * (64 / w) + k < n then mul (laneVal w (a b) k) else laneVal w (a b) k := by
  have hl := hw.le
  have hl64 : w ≤ 64 := by omega
  have hlk := hw.lane_le hk
  have hwd := start_lt_width hw s n hs
  have pos := range_pos hw s n b k hk hs (mul (laneVal w (a b) k)) (laneVal w (a b) k)
  have neg := range_neg hw s n b k hk hs (mul (laneVal w (a b) k)) (laneVal w (a b) k)
  unfold rescaleWords
  simp only [hw.case]
  rw [hw.block, hw.spot s, hw.width]
  set L := 64 / w with hL
  set W := (n + (L - 1)) / L with hW
  set sb := s / L with hsb
  set t := laneRun mul (fromCase (s % L) code.first) (a sb >>> (s % L * w)) 0#64 with ht
  have hsL : s % L < L := Nat.mod_lt _ hw.lpos
  have htl : laneVal w t k = if s % L ≤ k then mul (laneVal w (a sb) k) else 0#64 := by
    rw [ht, laneRun_lane hw mul (a sb) (fun k hk => hm sb k hk) _ (s % L) _ (hc.first _ hsL) k hk]
    simp
  have hB : ∀ i, i < w → (rightBitmask (64 - s % L * w)).getLsbD (k * w + i) = decide (s % L ≤ k) := by
    intro i hi; rw [← hw.spot s]; exact begin_lane hw s k i hk hi
  have hE : ∀ i, i < w → (leftBitmask (w * n % 64)).getLsbD (k * w + i) = decide (n % L = 0 ∨ k < n % L) :=
    fun i hi => end_lane hw n k i hk hi
  have hBE : ∀ i, i < w → (rightBitmask (64 - s % L * w) &&& leftBitmask (w * n % 64)).getLsbD (k * w + i) =
      (decide (s % L ≤ k) && decide (n % L = 0 ∨ k < n % L)) := by
    intro i hi; rw [BitVec.getLsbD_and, hB i hi, hE i hi]
  have hmul0 : ∀ b k, k < L → laneVal w (laneRun mul code.single (a b) 0#64) k = mul (laneVal w (a b) k) := by
    intro b k hk
    have := laneRun_lane hw mul (a b) (fun k hk => hm b k hk) _ 0 0#64 hc.single k hk
    simpa using this
  clear_value t
  clear_value W sb
  clear hsb hW ht
  by_cases h1 : W - sb = 1
  · rw [if_pos h1]
    by_cases hb : b = sb
    · subst hb
      simp only [setWord, if_true, lane_xor _ _ _ _ hl64]
      rw [lane_and_not_mask w _ _ k hl64 hlk _ hBE, lane_and_mask w _ _ k hl64 _ hE, lane_and_mask w _ _ k hl64 _ hB, htl]
      by_cases p1 : s % L ≤ k
      · by_cases p2 : n % L = 0 ∨ k < n % L
        · rw [pos (by omega)]; simp [p1, p2]
        · rw [neg (by omega)]; simp [p1, p2]
      · rw [neg (by omega)]; simp [p1]
    · rw [neg (by omega)]; simp [setWord, hb]
  · rw [if_neg h1]
    set a1 := setWord (setWord a sb (a sb &&& ~~~rightBitmask (64 - s % L * w))) sb
      (setWord a sb (a sb &&& ~~~rightBitmask (64 - s % L * w)) sb ^^^ t &&& rightBitmask (64 - s % L * w)) with ha1
    have ha1b : ∀ b, b ≠ sb → a1 b = a b := by intro b hb; simp [ha1, setWord, hb]
    have ha1s : laneVal w (a1 sb) k = if s % L ≤ k then mul (laneVal w (a sb) k) else laneVal w (a sb) k := by
      rw [ha1]
      simp only [setWord, if_true, lane_xor _ _ _ _ hl64]
      rw [lane_and_not_mask w _ _ k hl64 hlk _ hB, lane_and_mask w _ _ k hl64 _ hB, htl]
      by_cases p1 : s % L ≤ k <;> simp [p1]
    obtain ⟨m1, m2⟩ := midLoops_spec (fun ops _ v => laneRun mul ops v 0#64)
      (fun _ v => laneRun mul code.single v 0#64) code W (sb + 1) a1 (by omega)
      (fun ops ho _ v => laneRun_congr mul ops code.single 0 v _ (hc.unrolled ops ho) hc.single) (fun _ _ => rfl)
    rw [m1]
    by_cases hlast : b = W - 1
    · subst hlast
      have e1 : (midLoops (fun ops _ v => laneRun mul ops v 0#64) code W (sb + 1) a1).2 (W - 1) = a (W - 1) := by
        rw [m2, if_neg (by omega), ha1b _ (by omega)]
      simp only [setWord, if_true]
      rw [e1, lastRun_lane hw mul (a (W-1)) (fun k hk => hm _ k hk) _ _ _ (by split_ifs <;> [rfl; exact (Nat.mod_lt _ hw.lpos).le]) (last_case hw n hc) k hk,
        lane_and_not_mask w _ _ k hl64 hlk _ hE]
      by_cases p2 : n % L = 0 ∨ k < n % L
      · rw [pos (by omega)]
        have : k < if n % L = 0 then L else n % L := by split_ifs <;> omega
        rw [if_pos this, decide_eq_true p2]; simp
      · rw [neg (by omega)]
        have : ¬ k < if n % L = 0 then L else n % L := by split_ifs <;> omega
        rw [if_neg this, decide_eq_false p2]; simp
    · simp only [setWord, if_neg hlast]
      rw [m2]
      by_cases hmid : sb + 1 ≤ b ∧ b < W - 1
      · rw [if_pos hmid, pos (by omega), ha1b _ (by omega)]
        exact hmul0 b k hk
      · rw [if_neg hmid]
        by_cases hb : b = sb
        · subst hb
          rw [ha1s]
          by_cases p1 : s % L ≤ k
          · rw [if_pos p1, pos (by omega)]
          · rw [if_neg p1, neg (by omega)]
        · rw [ha1b _ hb, neg (by omega)]

theorem addmulWords_lane (mul : Word → Word) {code : LaneCode} (hc : CodeOk w code) (n s : Nat) (hs : s < n)
    (a f : Nat → Word) (hm : ∀ b k, k < 64 / w → (mul (laneVal w (f b) k)).toNat < 2 ^ w) (b k : Nat) (hk : k < 64 / w) :
    laneVal w (addmulWords mul code w n s a f b) k =
      if s ≤ b * (64 / w) + k ∧ b * (64 / w) + k < n then laneVal w (a b) k ^^^ mul (laneVal w (f b) k)
      else laneVal w (a b) k := by
  have hl := hw.le
  have hl64 : w ≤ 64 := by omega
  have hlk := hw.lane_le hk
  have hwd := start_lt_width hw s n hs
  have pos := range_pos hw s n b k hk hs (laneVal w (a b) k ^^^ mul (laneVal w (f b) k)) (laneVal w (a b) k)
  have neg := range_neg hw s n b k hk hs (laneVal w (a b) k ^^^ mul (laneVal w (f b) k)) (laneVal w (a b) k)
  unfold addmulWords
  simp only [hw.case]
  rw [hw.block, hw.spot s, hw.width]
  set L := 64 / w with hL
  set W := (n + (L - 1)) / L with hW
  set sb := s / L with hsb
  set t := laneRun mul (fromCase (s % L) code.first) (f sb >>> (s % L * w)) (a sb) with ht
  have hsL : s % L < L := Nat.mod_lt _ hw.lpos
  have htl : laneVal w t k = laneVal w (a sb) k ^^^ if s % L ≤ k then mul (laneVal w (f sb) k) else 0#64 := by
    rw [ht, laneRun_lane hw mul (f sb) (fun k hk => hm sb k hk) _ (s % L) _ (hc.first _ hsL) k hk]
  have hE : ∀ i, i < w → (leftBitmask (w * n % 64)).getLsbD (k * w + i) = decide (n % L = 0 ∨ k < n % L) :=
    fun i hi => end_lane hw n k i hk hi
  have hmul0 : ∀ b k v, k < L → laneVal w (laneRun mul code.single (f b) v) k = laneVal w v k ^^^ mul (laneVal w (f b) k) := by
    intro b k v hk
    have := laneRun_lane hw mul (f b) (fun k hk => hm b k hk) _ 0 v hc.single k hk
    simpa using this
  clear_value t
  clear_value W sb
  clear hsb hW ht
  by_cases h1 : W - sb = 1
  · rw [if_pos h1]
    by_cases hb : b = sb
    · subst hb
      simp only [setWord, if_true, lane_xor _ _ _ _ hl64]
      rw [lane_and_not_mask w _ _ k hl64 hlk _ hE, lane_and_mask w _ _ k hl64 _ hE, htl]
      by_cases p1 : s % L ≤ k
      · by_cases p2 : n % L = 0 ∨ k < n % L
        · rw [pos (by omega)]; simp [p1, p2]
        · rw [neg (by omega)]; simp [p2]
      · by_cases p2 : n % L = 0 ∨ k < n % L
        · rw [neg (by omega)]; simp [p1, p2]
        · rw [neg (by omega)]; simp [p2]
    · rw [neg (by omega)]; simp [setWord, hb]
  · rw [if_neg h1]
    set a1 := setWord a sb t with ha1
    have ha1b : ∀ b, b ≠ sb → a1 b = a b := by intro b hb; simp [ha1, setWord, hb]
    have ha1s : a1 sb = t := by simp [ha1, setWord]
    obtain ⟨m1, m2⟩ := midLoops_spec (fun ops j v => laneRun mul ops (f j) v)
      (fun j v => laneRun mul code.single (f j) v) code W (sb + 1) a1 (by omega)
      (fun ops ho j v => laneRun_congr mul ops code.single 0 (f j) v (hc.unrolled ops ho) hc.single) (fun _ _ => rfl)
    rw [m1]
    by_cases hlast : b = W - 1
    · subst hlast
      have e1 : (midLoops (fun ops j v => laneRun mul ops (f j) v) code W (sb + 1) a1).2 (W - 1) = a (W - 1) := by
        rw [m2, if_neg (by omega), ha1b _ (by omega)]
      simp only [setWord, if_true]
      rw [e1, lastRun_lane hw mul (f (W-1)) (fun k hk => hm _ k hk) _ _ _ (by split_ifs <;> [rfl; exact (Nat.mod_lt _ hw.lpos).le]) (last_case hw n hc) k hk]
      by_cases p2 : n % L = 0 ∨ k < n % L
      · rw [pos (by omega)]
        have : k < if n % L = 0 then L else n % L := by split_ifs <;> omega
        rw [if_pos this]
      · rw [neg (by omega)]
        have : ¬ k < if n % L = 0 then L else n % L := by split_ifs <;> omega
        rw [if_neg this]; simp
    · simp only [setWord, if_neg hlast]
      rw [m2]
      by_cases hmid : sb + 1 ≤ b ∧ b < W - 1
      · rw [if_pos hmid, pos (by omega), ha1b _ (by omega)]
        exact hmul0 b k _ hk
      · rw [if_neg hmid]
        by_cases hb : b = sb
        · subst hb
          rw [ha1s, htl]
          by_cases p1 : s % L ≤ k
          · rw [if_pos p1, pos (by omega)]
          · rw [if_neg p1, neg (by omega)]; simp
        · rw [ha1b _ hb, neg (by omega)]

omit hw in
theorem addRowMid_spec (f : Nat → Word) : ∀ (n j : Nat) (a : Nat → Word) (i : Nat),
    addRowMid f j n a i = if j ≤ i ∧ i < j + n then a i ^^^ f i else a i := by
  intro n
  induction n with
  | zero => intro j a i; rw [if_neg (by omega)]; rfl
  | succ n ih =>
    intro j a i
    rw [addRowMid, ih]
    unfold setWord
    by_cases h1 : i = j
    · subst h1; rw [if_neg (by omega), if_pos rfl, if_pos (by omega)]
    · rw [if_neg h1]
      by_cases h2 : j + 1 ≤ i ∧ i < j + 1 + n
      · rw [if_pos h2, if_pos (by omega)]
      · rw [if_neg h2, if_neg (by omega)]

theorem addRowWords_lane (n s : Nat) (hs : s < n) (a f : Nat → Word) (b k : Nat) (hk : k < 64 / w) :
    laneVal w (addRowWords w n s a f b) k =
      if s ≤ b * (64 / w) + k ∧ b * (64 / w) + k < n then laneVal w (a b) k ^^^ laneVal w (f b) k
      else laneVal w (a b) k := by
  have hl := hw.le
  have hl64 : w ≤ 64 := by omega
  have hlk := hw.lane_le hk
  have hwd := start_lt_width hw s n hs
  have pos := range_pos hw s n b k hk hs (laneVal w (a b) k ^^^ laneVal w (f b) k) (laneVal w (a b) k)
  have neg := range_neg hw s n b k hk hs (laneVal w (a b) k ^^^ laneVal w (f b) k) (laneVal w (a b) k)
  unfold addRowWords
  rw [hw.block, hw.spot s, hw.width]
  set L := 64 / w with hL
  set W := (n + (L - 1)) / L with hW
  set sb := s / L with hsb
  have hsL : s % L < L := Nat.mod_lt _ hw.lpos
  have hB : ∀ i, i < w → (rightBitmask (64 - s % L * w)).getLsbD (k * w + i) = decide (s % L ≤ k) := by
    intro i hi; rw [← hw.spot s]; exact begin_lane hw s k i hk hi
  have hE : ∀ i, i < w → (leftBitmask (w * n % 64)).getLsbD (k * w + i) = decide (n % L = 0 ∨ k < n % L) :=
    fun i hi => end_lane hw n k i hk hi
  have hBE : ∀ i, i < w → (rightBitmask (64 - s % L * w) &&& leftBitmask (w * n % 64)).getLsbD (k * w + i) =
      (decide (s % L ≤ k) && decide (n % L = 0 ∨ k < n % L)) := by
    intro i hi; rw [BitVec.getLsbD_and, hB i hi, hE i hi]
  clear_value W sb
  clear hsb hW
  by_cases h1 : W - sb > 1
  · rw [if_pos h1]
    set a1 := setWord a sb (a sb ^^^ f sb &&& rightBitmask (64 - s % L * w)) with ha1
    have ha1b : ∀ b, b ≠ sb → a1 b = a b := by intro b hb; simp [ha1, setWord, hb]
    have ha1s : a1 sb = a sb ^^^ (f sb &&& rightBitmask (64 - s % L * w)) := by simp [ha1, setWord]
    have m2 := addRowMid_spec f (W - 1 - (sb + 1)) (sb + 1) a1
    set m := addRowMid f (sb + 1) (W - 1 - (sb + 1)) a1 with hm
    clear_value m a1
    by_cases hlast : b = W - 1
    · subst hlast
      have e1 : m (W - 1) = a (W - 1) := by rw [m2, if_neg (by omega), ha1b _ (by omega)]
      simp only [setWord, if_true]
      rw [e1, lane_xor _ _ _ _ hl64, lane_and_mask w _ _ k hl64 _ hE]
      by_cases p2 : n % L = 0 ∨ k < n % L
      · rw [pos (by omega)]; simp [p2]
      · rw [neg (by omega)]; simp [p2]
    · simp only [setWord, if_neg hlast]
      rw [m2]
      by_cases hmid : sb + 1 ≤ b ∧ b < sb + 1 + (W - 1 - (sb + 1))
      · rw [if_pos hmid, ha1b _ (by omega), pos (by omega), lane_xor _ _ _ _ hl64]
      · rw [if_neg hmid]
        by_cases hb : b = sb
        · subst hb
          rw [ha1s, lane_xor _ _ _ _ hl64, lane_and_mask w _ _ k hl64 _ hB]
          by_cases p1 : s % L ≤ k
          · rw [pos (by omega)]; simp [p1]
          · rw [neg (by omega)]; simp [p1]
        · rw [ha1b _ hb, neg (by omega)]
  · rw [if_neg h1]
    by_cases hb : b = sb
    · subst hb
      simp only [setWord, if_true]
      rw [lane_xor _ _ _ _ hl64, lane_and_mask w _ _ k hl64 _ hBE]
      by_cases p1 : s % L ≤ k
      · by_cases p2 : n % L = 0 ∨ k < n % L
        · rw [pos (by omega)]; simp [p1, p2]
        · rw [neg (by omega)]; simp [p2]
      · rw [neg (by omega)]; simp [p1]
    · rw [neg (by omega)]; simp [setWord, hb]

end ops
end M4rie
