import Verif.Proofs.Lane

namespace M4rie
open M4rie.Spec

/-- `2^w - 1` -/
def lowMask (w : Nat) : Word := BitVec.ofNat 64 (2 ^ w - 1)

theorem getLsbD_lowMask (w i : Nat) (hi : i < 64) : (lowMask w).getLsbD i = decide (i < w) := by
  unfold lowMask
  rw [BitVec.getLsbD_ofNat, Nat.testBit_two_pow_sub_one]; simp [hi]

def opsOk (w : Nat) : Nat → List LaneOp → Bool
  | k, [] => k == 64 / w
  | k, op :: ops => op.mask == lowMask w && op.shl == k * w && (ops.isEmpty || op.shr == w) && opsOk w (k + 1) ops

def lastOk (w : Nat) : Nat → List LaneOp → Bool
  | c, [] => c == 0
  | 0, _ :: _ => false
  | c + 1, op :: ops => op.mask == lowMask w <<< (c * w) && op.shr == c * w && op.shl == c * w && lastOk w c ops

theorem opsOk_le {w : Nat} : ∀ (ops : List LaneOp) (s : Nat), opsOk w s ops = true → s + ops.length = 64 / w := by
  intro ops
  induction ops with
  | nil => intro s h; simpa [opsOk] using h
  | cons op ops ih =>
    intro s h
    simp only [opsOk, Bool.and_eq_true] at h
    have := ih _ h.2
    simp; omega

theorem laneRun_lane {w : Nat} (hw : OkW w) (mul : Word → Word) (v : Word)
    (hm : ∀ k, k < 64 / w → (mul (laneVal w v k)).toNat < 2 ^ w) :
    ∀ (ops : List LaneOp) (s : Nat) (t : Word), opsOk w s ops = true →
      ∀ k, k < 64 / w → laneVal w (laneRun mul ops (v >>> (s * w)) t) k =
        laneVal w t k ^^^ (if s ≤ k then mul (laneVal w v k) else 0#64) := by
  have hl := hw.le
  intro ops
  induction ops with
  | nil =>
    intro s t h k hk
    simp only [opsOk, beq_iff_eq] at h
    simp [laneRun, show ¬ s ≤ k by omega]
  | cons op ops ih =>
    intro s t h k hk
    have hlen := opsOk_le _ _ h
    simp only [opsOk, Bool.and_eq_true, beq_iff_eq, Bool.or_eq_true, List.isEmpty_iff] at h
    obtain ⟨⟨⟨h1, h2⟩, h3⟩, h4⟩ := h
    have hs : s < 64 / w := by simp at hlen; omega
    have e1 : (v >>> (s * w)) &&& op.mask = laneVal w v s := by
      rw [h1, and_lowmask w _ _ (by omega) (fun i hi => getLsbD_lowMask w i hi), lane_ushr _ _ _ _ (by omega)]
      simp
    simp only [laneRun]
    rw [e1, h2]
    have key : ∀ t', laneVal w (laneRun mul ops (v >>> (s * w) >>> op.shr) t') k
        = laneVal w t' k ^^^ (if s + 1 ≤ k then mul (laneVal w v k) else 0#64) := by
      intro t'
      rcases h3 with h3 | h3
      · subst h3
        simp at hlen
        simp [laneRun, show ¬ s + 1 ≤ k by omega]
      · rw [h3, ← BitVec.shiftRight_add, show s * w + w = (s + 1) * w by ring]
        exact ih (s + 1) t' h4 k hk
    rw [key, lane_xor _ _ _ _ (by omega), lane_shl hw _ (hm s hs) s k hs hk]
    by_cases hsk : k = s
    · subst hsk; simp
    · have : s ≤ k ↔ s + 1 ≤ k := by omega
      simp [hsk, this]

theorem lastRun_lane {w : Nat} (hw : OkW w) (mul : Word → Word) (v : Word)
    (hm : ∀ k, k < 64 / w → (mul (laneVal w v k)).toNat < 2 ^ w) :
    ∀ (ops : List LaneOp) (c : Nat) (t : Word), c ≤ 64 / w → lastOk w c ops = true →
      ∀ k, k < 64 / w → laneVal w (lastRun mul ops v t) k =
        laneVal w t k ^^^ (if k < c then mul (laneVal w v k) else 0#64) := by
  have hl := hw.le
  intro ops
  induction ops with
  | nil =>
    intro c t hc h k hk
    have : c = 0 := by cases c <;> simpa [lastOk] using h
    simp [lastRun, this]
  | cons op ops ih =>
    intro c t hc h k hk
    cases c with
    | zero => simp [lastOk] at h
    | succ c =>
      simp only [lastOk, Bool.and_eq_true, beq_iff_eq] at h
      obtain ⟨⟨⟨h1, h2⟩, h3⟩, h4⟩ := h
      have hcl := hw.lane_le (show c < 64 / w by omega)
      have e1 : (v &&& op.mask) >>> op.shr = laneVal w v c := by
        rw [h2, h1]
        apply and_mask_shr w _ _ _ (by omega) _ hcl
        intro i hi
        rw [BitVec.getLsbD_shiftLeft]
        by_cases hci : c * w ≤ i
        · rw [getLsbD_lowMask _ _ (by omega)]
          simp [hi, hci]
          rw [Bool.eq_iff_iff]; simp; omega
        · simp [hci]
      simp only [lastRun]
      rw [e1, h3, ih c _ (by omega) h4 k hk, lane_xor _ _ _ _ (by omega), lane_shl hw _ (hm c (by omega)) c k (by omega) hk]
      by_cases hck : k = c
      · subst hck; simp
      · have : k < c ↔ k < c + 1 := by omega
        simp [hck, this]

/-- all operation lists of a width are the intended ones -/
structure CodeOk (w : Nat) (code : LaneCode) : Prop where
  first : ∀ s, s < 64 / w → opsOk w s (fromCase s code.first) = true
  unrolled : ∀ ops ∈ code.unrolled, opsOk w 0 ops = true
  single : opsOk w 0 code.single = true
  last : ∀ c, c < 64 / w → lastOk w (if c = 0 then 64 / w else c) (fromCase (c * w) code.last) = true

theorem rescaleCode_ok {w : Nat} (hw : OkW w) : ∃ code, rescaleCode w = some code ∧ CodeOk w code := by
  rcases hw with rfl | rfl | rfl | rfl
  all_goals exact ⟨_, rfl, by decide +kernel, by decide +kernel, by decide +kernel, by decide +kernel⟩

theorem addmulCode_ok {w : Nat} (hw : OkW w) : ∃ code, addmulCode w = some code ∧ CodeOk w code := by
  rcases hw with rfl | rfl | rfl | rfl
  all_goals exact ⟨_, rfl, by decide +kernel, by decide +kernel, by decide +kernel, by decide +kernel⟩

/-! ### the loops over the middle words -/

section loops
variable (body : List LaneOp → Nat → Word → Word)

theorem unrolledBody_spec (b : Nat → Word → Word) :
    ∀ (code : List (List LaneOp)) (j : Nat) (row : Nat → Word), (∀ ops ∈ code, ∀ j v, body ops j v = b j v) →
    ∀ i, unrolledBody body j code row i = if j ≤ i ∧ i < j + code.length then b i (row i) else row i := by
  intro code
  induction code with
  | nil => intro j row h i; simp [unrolledBody]
  | cons ops rest ih =>
    intro j row h i
    rw [unrolledBody, ih _ _ (fun o ho => h o (List.mem_cons_of_mem _ ho))]
    unfold setWord
    rw [h ops (List.mem_cons_self ..)]
    simp only [List.length_cons]
    by_cases h1 : j + 1 ≤ i ∧ i < j + 1 + rest.length
    · rw [if_pos h1, if_neg (by omega), if_pos (by omega)]
    · rw [if_neg h1]
      by_cases h2 : i = j
      · subst h2; rw [if_pos rfl, if_pos (by omega)]
      · rw [if_neg h2, if_neg (by omega)]

theorem unrolledLoop_spec (b : Nat → Word → Word) (code : List (List LaneOp)) (width : Nat)
    (h : ∀ ops ∈ code, ∀ j v, body ops j v = b j v) :
    ∀ (fuel j : Nat) (row : Nat → Word), j < width →
    j ≤ (unrolledLoop body code width fuel j row).1 ∧ (unrolledLoop body code width fuel j row).1 < width ∧
    ∀ i, (unrolledLoop body code width fuel j row).2 i =
      if j ≤ i ∧ i < (unrolledLoop body code width fuel j row).1 then b i (row i) else row i := by
  intro fuel
  induction fuel with
  | zero => intro j row hj; refine ⟨le_rfl, hj, ?_⟩; intro i; show row i = if j ≤ i ∧ i < j then _ else _; rw [if_neg (by omega)]
  | succ n ih =>
    intro j row hj
    rw [unrolledLoop]
    by_cases hc : code.length ≠ 0 ∧ j + code.length < width
    · rw [if_pos hc]
      obtain ⟨h1, h2, h3⟩ := ih (j + code.length) (unrolledBody body j code row) hc.2
      refine ⟨by omega, h2, ?_⟩
      intro i
      rw [h3 i, unrolledBody_spec body b code j row h i]
      by_cases h5 : j + code.length ≤ i ∧ i < (unrolledLoop body code width n (j + code.length) (unrolledBody body j code row)).1
      · rw [if_pos h5, if_neg (by omega), if_pos (by omega)]
      · rw [if_neg h5]
        by_cases h6 : j ≤ i ∧ i < j + code.length
        · rw [if_pos h6, if_pos (by omega)]
        · rw [if_neg h6, if_neg (by omega)]
    · rw [if_neg hc]
      refine ⟨le_rfl, hj, ?_⟩; intro i; rw [if_neg (by omega)]

theorem singleLoop_spec (b : Nat → Word → Word) (code : List LaneOp) (width : Nat)
    (h : ∀ j v, body code j v = b j v) :
    ∀ (fuel j : Nat) (row : Nat → Word), j < width → width ≤ j + fuel →
    (singleLoop body code width fuel j row).1 = width - 1 ∧
    ∀ i, (singleLoop body code width fuel j row).2 i =
      if j ≤ i ∧ i < width - 1 then b i (row i) else row i := by
  intro fuel
  induction fuel with
  | zero => intro j row hj hf; omega
  | succ n ih =>
    intro j row hj hf
    rw [singleLoop]
    by_cases hc : j < width - 1
    · rw [if_pos hc]
      obtain ⟨h1, h3⟩ := ih (j + 1) (setWord row j (body code j (row j))) (by omega) (by omega)
      refine ⟨h1, ?_⟩
      intro i
      rw [h3 i]
      unfold setWord
      rw [h]
      by_cases h5 : j + 1 ≤ i ∧ i < width - 1
      · rw [if_pos h5, if_neg (by omega), if_pos (by omega)]
      · rw [if_neg h5]
        by_cases h6 : i = j
        · subst h6; rw [if_pos rfl, if_pos (by omega)]
        · rw [if_neg h6, if_neg (by omega)]
    · rw [if_neg hc]
      refine ⟨by simp; omega, ?_⟩; intro i; simp; omega

theorem midLoops_spec (b : Nat → Word → Word) (code : LaneCode) (width j : Nat) (row : Nat → Word) (hj : j < width)
    (h1 : ∀ ops ∈ code.unrolled, ∀ j v, body ops j v = b j v) (h2 : ∀ j v, body code.single j v = b j v) :
    (midLoops body code width j row).1 = width - 1 ∧
    ∀ i, (midLoops body code width j row).2 i = if j ≤ i ∧ i < width - 1 then b i (row i) else row i := by
  obtain ⟨a1, a2, a3⟩ := unrolledLoop_spec body b code.unrolled width h1 width j row hj
  obtain ⟨b1, b2⟩ := singleLoop_spec body b code.single width h2 width _ (unrolledLoop body code.unrolled width width j row).2 a2 (by omega)
  refine ⟨b1, ?_⟩
  intro i
  show (singleLoop body code.single width width (unrolledLoop body code.unrolled width width j row).1 (unrolledLoop body code.unrolled width width j row).2).2 i = _
  rw [b2 i, a3 i]
  by_cases h5 : (unrolledLoop body code.unrolled width width j row).1 ≤ i ∧ i < width - 1
  · rw [if_pos h5, if_neg (by omega), if_pos (by omega)]
  · rw [if_neg h5]
    by_cases h6 : j ≤ i ∧ i < (unrolledLoop body code.unrolled width width j row).1
    · rw [if_pos h6, if_pos (by omega)]
    · rw [if_neg h6, if_neg (by omega)]
end loops

end M4rie
