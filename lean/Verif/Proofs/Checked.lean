import Verif.Model.Checked
import Verif.Proofs.Pack

/-! The checked row operations are defined and do what the total ones do. -/

namespace M4rie.Chk
open M4rie M4rie.Spec

theorem int_eq {n : Nat} (h : n < 2 ^ 31) : int? n = some n := if_pos h
theorem shl_eq {x : Word} {n : Nat} (h : n < 64) : shl x n = some (x <<< n) := if_pos h
theorem shr_eq {x : Word} {n : Nat} (h : n < 64) : shr x n = some (x >>> n) := if_pos h
theorem need_eq {c : Prop} [Decidable c] (h : c) : need c = some () := if_pos h
theorem assert_eq {d : Bool} {c : Prop} [Decidable c] (h : c) : assert? d c = some () := if_neg (by simp [h])
theorem ldr_eq {W : Nat} {row : Nat → Word} {b : Nat} (h : b < W) : ldr W row b = some (row b) := if_pos h
theorem str_eq {W : Nat} {row : Nat → Word} {b : Nat} {v : Word} (h : b < W) : str W row b v = some (setWord row b v) := if_pos h
theorem rowOf_eq {A : Mzed} {i : Nat} (h : i < A.nrows) : rowOf A i = some (A.words i) := if_pos h
theorem ld_eq {A : Mzed} {i b : Nat} (h : i < A.nrows) (hb : b < A.width) : ld A i b = some (A.words i b) := by
  unfold ld; rw [rowOf_eq h, Option.bind_some, ldr_eq hb]
theorem st_eq {A : Mzed} {i b : Nat} {v : Word} (h : i < A.nrows) (hb : b < A.width) :
    st A i b v = some { A with words := setRow A.words i (setWord (A.words i) b v) } := by
  unfold st; rw [rowOf_eq h, Option.bind_some, str_eq hb, Option.bind_some]
theorem xorAt_eq {W : Nat} {row : Nat → Word} {b : Nat} {v : Word} (h : b < W) :
    xorAt W row b v = some (setWord row b (row b ^^^ v)) := by
  unfold xorAt; rw [ldr_eq h, Option.bind_some, str_eq h]

theorem rightMask_eq {n : Nat} (h : 0 < n) : rightMask n = some (rightBitmask n) := shl_eq (by omega)

/-- the checked loop is the total loop if every step is, under an invariant -/
theorem forC_eq {σ : Type} (P : Nat → σ → Prop) (f : Nat → σ → Option σ) (g : Nat → σ → σ) (n : Nat) (s : σ) (h0 : P 0 s)
    (hs : ∀ i s, i < n → P i s → f i s = some (g i s) ∧ P (i + 1) (g i s)) :
    forC f n s = some (forN g n s) ∧ P n (forN g n s) := by
  induction n with
  | zero => exact ⟨rfl, h0⟩
  | succ n ih =>
    obtain ⟨h1, h2⟩ := ih (fun i s hi => hs i s (by omega))
    obtain ⟨h3, h4⟩ := hs n _ (by omega) h2
    exact ⟨by unfold forC; rw [h1, Option.bind_some, h3]; rfl, h4⟩

/-! ### gf2x -/

theorem divLoop_eq (b : Word) (degb : Nat) : ∀ (n : Nat) (s : Word × Word), degb + n ≤ 64 →
    divLoop b degb n s = some (gf2xDivLoop b degb n s) := by
  intro n
  induction n with
  | zero => intro s _; rfl
  | succ n ih =>
    rintro ⟨a, res⟩ h
    unfold divLoop
    rw [shr_eq (by omega), Option.bind_some, shl_eq (by omega), Option.bind_some, shl_eq (by omega), Option.bind_some, ih _ (by omega)]
    rfl

theorem divmod_eq (a b : Word) : divmod a b = some (gf2xDivmod a b) := by
  have h1 := gf2xDeg_lt a
  have h2 := gf2xDeg_lt b
  unfold divmod
  rw [divLoop_eq _ _ _ _ (by omega)]; rfl

theorem mulFrom_eq (a b : Word) : ∀ (d : Nat) (res : Word), d ≤ 64 → mulFrom a b d res = some (gf2xMulFrom a b d res) := by
  intro d
  induction d with
  | zero => intro res _; rfl
  | succ d ih =>
    intro res h
    unfold mulFrom
    rw [shl_eq (by omega), Option.bind_some, shr_eq (by omega), Option.bind_some, shl_eq (by omega), Option.bind_some, ih _ (by omega)]
    rfl

theorem mul_eq (a b : Word) (d : Nat) : mul a b d = gf2xMul? a b d := by
  unfold mul gf2xMul?
  by_cases h : 1 ≤ d ∧ d ≤ 32
  · rw [if_pos h, if_pos h, mulFrom_eq _ _ _ _ (by omega)]
  · rw [if_neg h, if_neg h]

theorem invLoop_eq (d : Nat) : ∀ (fuel : Nat) (a b x lx y ly : Word), invLoop d fuel a b x lx y ly = gf2xInvLoop d fuel a b x lx y ly := by
  intro fuel
  induction fuel with
  | zero => intros; unfold invLoop gf2xInvLoop; rfl
  | succ fuel ih =>
    intro a b x lx y ly
    unfold invLoop gf2xInvLoop
    by_cases h : b = 0#64
    · rw [if_pos h, if_pos h]
    · rw [if_neg h, if_neg h]
      show (divmod a b).bind _ = _
      rw [divmod_eq, Option.bind_some]
      simp only [mul_eq, ih]

theorem fmul_eq (ff : Gf2e) (hd : ff.degree < 64) (a b : Word) : fmul ff a b = gf2eMul? ff a b := by
  unfold fmul gf2eMul? gf2eMulTable? gf2eMulArith?
  cases ff.mulTab with
  | some t => rfl
  | none =>
    show (mul a b ff.degree).bind _ = (gf2xMul? a b ff.degree).bind _
    rw [mul_eq]
    cases gf2xMul? a b ff.degree with
    | none => rfl
    | some r =>
      show (shr r ff.degree).bind _ = _
      rw [shr_eq hd, Option.bind_some]
      show (need _).bind _ = if _ then _ else _
      unfold need
      by_cases h : (r >>> ff.degree).toNat < 2 ^ ff.degree
      · rw [if_pos h, if_pos h, Option.bind_some]
      · rw [if_neg h, if_neg h]; rfl

section field
variable {ff : Gf2e} [IsField ff]

theorem deg_le : ff.degree ≤ 16 := (Fact.out : FFOK ff).min.e16

theorem fmul_elem (x y : Elem ff) : fmul ff x.1 y.1 = some (x * y).1 := by
  rw [fmul_eq ff (by have := deg_le (ff := ff); omega), Elem.mul_val]
  exact (gf2eMul_spec Fact.out x.1 y.1 x.2 y.2).1

theorem inv_elem (x : Elem ff) : inv ff x.1 = some (x⁻¹).1 := by
  rw [← inv_pack]
  unfold inv gf2eInv gf2xInvmod
  rw [invLoop_eq]
  have hd := deg_le (ff := ff)
  have hmin := (Fact.out : FFOK ff).min
  show gf2xInvmodFuel 66 x.1 ff.minpoly ff.degree = some ((gf2xInvmodFuel 66 x.1 ff.minpoly ff.degree).getD 0#64)
  by_cases h0 : x.1 = 0#64
  · rw [h0, gf2xInvmodFuel_zero 66 (by omega) _ _ hmin.e1 (by omega) (fun h => hmin.ne0 ((toPoly_eq_zero_iff _).2 h))]; rfl
  · have hd' : (toPoly x.1).degree < (toPoly ff.minpoly).degree := by
      rw [hmin.degree]; exact (degree_toPoly_lt_iff' _ _).2 x.2
    have hirr : Irreducible (toPoly ff.minpoly) := Fact.out
    have hcop : IsCoprime (toPoly x.1) (toPoly ff.minpoly) := by
      refine ((hirr.coprime_iff_not_dvd).2 ?_).symm
      intro hdvd
      exact h0 ((toPoly_eq_zero_iff _).1 (Polynomial.eq_zero_of_dvd_of_degree_lt hdvd hd'))
    obtain ⟨v, e1, _⟩ := gf2xInvmodFuel_spec 66 (by omega) x.1 ff.minpoly ff.degree hmin.e1 (by omega) hmin.deg hd' hcop
    rw [e1]; rfl

/-! ### elements -/

section arith
variable {w : Nat} (hw : OkW w)
include hw
theorem elem_bounds {j n : Nat} (hj : j < n) : w * j % 64 + w ≤ 64 ∧ w * j / 64 < (w * n + 63) / 64 ∧ w * j + w ≤ w * n ∧ 0 < w ∧ w ≤ 16 := by
  rcases hw with rfl | rfl | rfl | rfl <;> norm_num <;> omega
end arith

variable {A B : Mzed} {M N : Nat → Nat → Elem ff}

theorem readElem_eq (h : Rep A M) {i j : Nat} (hi : i < A.nrows) (hj : j < A.ncols) (hs : A.bitCols < 2 ^ 31) :
    readElem A i j = some (M i j).1 := by
  obtain ⟨h1, h2, h3, h4, h5⟩ := elem_bounds h.wf.okW hj
  unfold Mzed.bitCols at hs
  unfold readElem readBits
  rw [int_eq (by omega), Option.bind_some, need_eq h1, Option.bind_some, ld_eq hi h2, Option.bind_some, shl_eq (by omega),
    Option.bind_some, shr_eq (by omega), ← h.read]
  rfl

theorem addElem_eq (h : Rep A M) {i j : Nat} (hi : i < A.nrows) (hj : j < A.ncols) (hs : A.bitCols < 2 ^ 31) (x : Word) :
    addElem A i j x = some (mzedAddElem A i j x) := by
  obtain ⟨h1, h2, h3, h4, h5⟩ := elem_bounds h.wf.okW hj
  unfold Mzed.bitCols at hs
  unfold addElem xorBits
  rw [int_eq (by omega), Option.bind_some, ld_eq hi h2, Option.bind_some, shl_eq (by omega),
    Option.bind_some, st_eq hi h2]
  rfl

theorem writeElem_eq (h : Rep A M) {i j : Nat} (hi : i < A.nrows) (hj : j < A.ncols) (hs : A.bitCols < 2 ^ 31) (x : Word) :
    writeElem A i j x = some (mzedWriteElem A i j x) := by
  obtain ⟨h1, h2, h3, h4, h5⟩ := elem_bounds h.wf.okW hj
  unfold Mzed.bitCols at hs
  unfold writeElem clearBits
  rw [int_eq (by omega), Option.bind_some, shr_eq (by omega), Option.bind_some, ld_eq hi h2, Option.bind_some, shl_eq (by omega),
    Option.bind_some, st_eq hi h2, Option.bind_some]
  unfold xorBits
  have hi' : i < (Mzed.mk A.ff A.fid A.nrows A.ncols A.w (setRow A.words i (setWord (A.words i) (A.w * j / 64)
    (A.words i (A.w * j / 64) &&& ~~~((ffff >>> (64 - A.w)) <<< (A.w * j % 64)))))).nrows := hi
  rw [ld_eq hi' h2, Option.bind_some, shl_eq (by omega), Option.bind_some, st_eq hi' h2]
  rfl

/-! ### rows -/

theorem addRowMid_eq (Wa Wb : Nat) (b : Nat → Word) : ∀ (n j : Nat) (a : Nat → Word), j + n ≤ Wa → j + n ≤ Wb →
    addRowMid Wa Wb b j n a = some (M4rie.addRowMid b j n a) := by
  intro n
  induction n with
  | zero => intros; rfl
  | succ n ih =>
    intro j a ha hb
    unfold addRowMid
    rw [ldr_eq (by omega), Option.bind_some, ldr_eq (by omega), Option.bind_some, str_eq (by omega), Option.bind_some, ih _ _ (by omega) (by omega)]
    rfl

theorem start_block {w : Nat} (hw : OkW w) {s n : Nat} (hs : s < n) : w * s / 64 < (w * n + 63) / 64 := (elem_bounds hw hs).2.1

theorem addRow_eq (dbg : Bool) (h : Rep A M) (hB : Rep B N) {ar br s : Nat} (har : ar < A.nrows) (hbr : br < B.nrows) (hs : s < A.ncols)
    (hn : A.ncols = B.ncols) (hf : A.fid = B.fid) (hsm : A.bitCols < 2 ^ 31) :
    addRow dbg A ar B br s = some (mzedAddRow A ar B br s) := by
  obtain ⟨h1, h2, h3, h4, h5⟩ := elem_bounds h.wf.okW hs
  have hW : B.width = A.width := by unfold Mzed.width Mzed.bitCols; rw [hB.wEq, h.wEq, hn]
  have h2' : A.w * s / 64 < A.width := h2
  unfold Mzed.bitCols at hsm
  unfold addRow rightMask
  rw [assert_eq ⟨hn, hf⟩, Option.bind_some, assert_eq hs, Option.bind_some, int_eq (by omega), Option.bind_some, shl_eq (by omega), Option.bind_some,
    rowOf_eq har, Option.bind_some, rowOf_eq hbr, Option.bind_some, hW]
  simp only []
  unfold mzedAddRow addRowWords
  show _ = some _
  simp only []
  by_cases hc : A.width - A.w * s / 64 > 1
  · have hc' : (A.w * A.ncols + 63) / 64 - A.w * s / 64 > 1 := hc
    rw [if_pos hc, if_pos hc', ldr_eq h2', Option.bind_some, xorAt_eq h2', Option.bind_some, addRowMid_eq _ _ _ _ _ _ (by omega) (by omega),
      Option.bind_some, ldr_eq (by omega), Option.bind_some, xorAt_eq (by omega)]
    rfl
  · have hc' : ¬ (A.w * A.ncols + 63) / 64 - A.w * s / 64 > 1 := hc
    rw [if_neg hc, if_neg hc', ldr_eq h2', Option.bind_some, xorAt_eq h2']
    rfl

/-! ### the unrolled code -/

theorem laneRun_eq {w : Nat} (hw : OkW w) (mul? : Word → Option Word) (mul : Word → Word) (v : Word)
    (hm : ∀ k, k < 64 / w → mul? (laneVal w v k) = some (mul (laneVal w v k))) :
    ∀ (ops : List LaneOp) (s : Nat) (t : Word), opsOk w s ops = true → (∀ op ∈ ops, op.shr < 64) →
      laneRun mul? ops (v >>> (s * w)) t = some (M4rie.laneRun mul ops (v >>> (s * w)) t) := by
  have hl := hw.le
  intro ops
  induction ops with
  | nil => intros; rfl
  | cons op ops ih =>
    intro s t h hr
    have hlen := opsOk_le _ _ h
    simp only [opsOk, Bool.and_eq_true, beq_iff_eq, Bool.or_eq_true, List.isEmpty_iff] at h
    obtain ⟨⟨⟨h1, h2⟩, h3⟩, h4⟩ := h
    have hs : s < 64 / w := by simp at hlen; omega
    have hlk := hw.lane_le hs
    have e1 : (v >>> (s * w)) &&& op.mask = laneVal w v s := by
      rw [h1, and_lowmask w _ _ (by omega) (fun i hi => getLsbD_lowMask w i hi), lane_ushr _ _ _ _ (by omega)]
      simp
    have hp := hw.pos
    unfold laneRun M4rie.laneRun
    rw [e1, hm s hs, Option.bind_some, shl_eq (by omega), Option.bind_some, shr_eq (hr _ (by simp)), Option.bind_some]
    rcases h3 with h3 | h3
    · subst h3; rfl
    · rw [h3, ← BitVec.shiftRight_add, show s * w + w = (s + 1) * w by ring]
      exact ih (s + 1) _ h4 (fun o ho => hr o (by simp [ho]))

theorem lastRun_eq {w : Nat} (hw : OkW w) (mul? : Word → Option Word) (mul : Word → Word) (v : Word)
    (hm : ∀ k, k < 64 / w → mul? (laneVal w v k) = some (mul (laneVal w v k))) :
    ∀ (ops : List LaneOp) (c : Nat) (t : Word), c ≤ 64 / w → lastOk w c ops = true →
      lastRun mul? ops v t = some (M4rie.lastRun mul ops v t) := by
  have hl := hw.le
  have hp := hw.pos
  intro ops
  induction ops with
  | nil => intros; rfl
  | cons op ops ih =>
    intro c t hc h
    cases c with
    | zero => simp [lastOk] at h
    | succ c =>
      simp only [lastOk, Bool.and_eq_true, beq_iff_eq] at h
      obtain ⟨⟨⟨h1, h2⟩, h3⟩, h4⟩ := h
      have hcl := hw.lane_le (show c < 64 / w by omega)
      have e1 : (v &&& op.mask) >>> op.shr = laneVal w v c := by
        rw [h2, h1]
        apply and_mask_shr w _ _ _ (by omega) _ hcl
        intro i hi
        rw [BitVec.getLsbD_shiftLeft]
        by_cases hci : c * w ≤ i
        · rw [getLsbD_lowMask _ _ (by omega)]
          simp [hi, hci]
          rw [Bool.eq_iff_iff]; simp; omega
        · simp [hci]
      unfold lastRun M4rie.lastRun
      rw [shr_eq (by omega), Option.bind_some, e1, hm c (by omega), Option.bind_some, shl_eq (by omega), Option.bind_some]
      exact ih c _ (by omega) h4

/-- all right shifts of the unrolled code are below 64 -/
structure ShrOk (code : LaneCode) : Prop where
  first : ∀ op ∈ code.first, op.shr < 64
  unrolled : ∀ ops ∈ code.unrolled, ∀ op ∈ ops, op.shr < 64
  single : ∀ op ∈ code.single, op.shr < 64

theorem rescaleCode_shr {w : Nat} (hw : OkW w) : ∃ code, rescaleCode w = some code ∧ CodeOk w code ∧ ShrOk code := by
  obtain ⟨c, h1, h2⟩ := rescaleCode_ok hw
  refine ⟨c, h1, h2, ?_⟩
  rcases hw with rfl | rfl | rfl | rfl <;> cases h1 <;> exact ⟨by decide +kernel, by decide +kernel, by decide +kernel⟩

theorem addmulCode_shr {w : Nat} (hw : OkW w) : ∃ code, addmulCode w = some code ∧ CodeOk w code ∧ ShrOk code := by
  obtain ⟨c, h1, h2⟩ := addmulCode_ok hw
  refine ⟨c, h1, h2, ?_⟩
  rcases hw with rfl | rfl | rfl | rfl <;> cases h1 <;> exact ⟨by decide +kernel, by decide +kernel, by decide +kernel⟩

theorem fromCase_mem {label : Nat} {ops : List LaneOp} {op : LaneOp} (h : op ∈ fromCase label ops) : op ∈ ops :=
  (List.dropWhile_sublist _).subset h

section loops
variable (W : Nat) (body? : List LaneOp → Nat → Word → Option Word) (body : List LaneOp → Nat → Word → Word) (a : Nat → Word)

/-- rows agreeing with `a` from word `j` on -/
def AgreeFrom (j : Nat) (row : Nat → Word) : Prop := ∀ i, j ≤ i → row i = a i

theorem unrolledBody_eq : ∀ (code : List (List LaneOp)) (j : Nat) (row : Nat → Word), j + code.length ≤ W → AgreeFrom a j row →
    (∀ ops ∈ code, ∀ j, j < W → body? ops j (a j) = some (body ops j (a j))) →
    unrolledBody W body? j code row = some (M4rie.unrolledBody body j code row) ∧
      AgreeFrom a (j + code.length) (M4rie.unrolledBody body j code row) := by
  intro code
  induction code with
  | nil => intro j row _ ha _; exact ⟨rfl, ha⟩
  | cons ops rest ih =>
    intro j row hj ha hb
    simp only [List.length_cons] at hj
    unfold unrolledBody M4rie.unrolledBody
    rw [ldr_eq (by omega), Option.bind_some, ha j le_rfl, hb ops (by simp) j (by omega), Option.bind_some, str_eq (by omega), Option.bind_some]
    obtain ⟨h1, h2⟩ := ih (j + 1) (setWord row j (body ops j (a j))) (by omega)
      (fun i hi => by unfold setWord; rw [if_neg (by omega)]; exact ha i (by omega)) (fun o ho => hb o (by simp [ho]))
    exact ⟨h1, by rw [List.length_cons, show j + (rest.length + 1) = j + 1 + rest.length by omega]; exact h2⟩

theorem unrolledLoop_eq (code : List (List LaneOp)) (hb : ∀ ops ∈ code, ∀ j, j < W → body? ops j (a j) = some (body ops j (a j))) :
    ∀ (fuel j : Nat) (row : Nat → Word), j < W → AgreeFrom a j row →
    unrolledLoop W body? code W fuel j row = some (M4rie.unrolledLoop body code W fuel j row) ∧
      (M4rie.unrolledLoop body code W fuel j row).1 < W ∧
      AgreeFrom a (M4rie.unrolledLoop body code W fuel j row).1 (M4rie.unrolledLoop body code W fuel j row).2 := by
  intro fuel
  induction fuel with
  | zero => intro j row hj ha; exact ⟨rfl, hj, ha⟩
  | succ fuel ih =>
    intro j row hj ha
    unfold unrolledLoop M4rie.unrolledLoop
    by_cases hc : code.length ≠ 0 ∧ j + code.length < W
    · rw [if_pos hc, if_pos hc]
      obtain ⟨h1, h2⟩ := unrolledBody_eq W body? body a code j row (by omega) ha hb
      rw [h1, Option.bind_some]
      exact ih _ _ hc.2 h2
    · rw [if_neg hc, if_neg hc]; exact ⟨rfl, hj, ha⟩

theorem singleLoop_eq (code : List LaneOp) (hb : ∀ j, j < W → body? code j (a j) = some (body code j (a j))) :
    ∀ (fuel j : Nat) (row : Nat → Word), j < W → AgreeFrom a j row →
    singleLoop W body? code W fuel j row = some (M4rie.singleLoop body code W fuel j row) ∧
      (M4rie.singleLoop body code W fuel j row).1 < W ∧
      AgreeFrom a (M4rie.singleLoop body code W fuel j row).1 (M4rie.singleLoop body code W fuel j row).2 := by
  intro fuel
  induction fuel with
  | zero => intro j row hj ha; exact ⟨rfl, hj, ha⟩
  | succ fuel ih =>
    intro j row hj ha
    unfold singleLoop M4rie.singleLoop
    by_cases hc : j < W - 1
    · rw [if_pos hc, if_pos hc, ldr_eq (by omega), Option.bind_some, ha j le_rfl, hb j (by omega), Option.bind_some, str_eq (by omega), Option.bind_some]
      exact ih _ _ (by omega) (fun i hi => by unfold setWord; rw [if_neg (by omega)]; exact ha i (by omega))
    · rw [if_neg hc, if_neg hc]; exact ⟨rfl, hj, ha⟩

theorem midLoops_eq (code : LaneCode) (hb1 : ∀ ops ∈ code.unrolled, ∀ j, j < W → body? ops j (a j) = some (body ops j (a j)))
    (hb2 : ∀ j, j < W → body? code.single j (a j) = some (body code.single j (a j))) (j : Nat) (row : Nat → Word) (hj : j < W) (ha : AgreeFrom a j row) :
    midLoops W body? code W j row = some (M4rie.midLoops body code W j row) ∧
      (M4rie.midLoops body code W j row).1 < W ∧
      AgreeFrom a (M4rie.midLoops body code W j row).1 (M4rie.midLoops body code W j row).2 := by
  obtain ⟨h1, h2, h3⟩ := unrolledLoop_eq W body? body a code.unrolled hb1 W j row hj ha
  unfold midLoops M4rie.midLoops
  rw [h1, Option.bind_some]
  exact singleLoop_eq W body? body a code.single hb2 W _ _ h2 h3
end loops

section ops
variable {w : Nat} (hw : OkW w)
include hw

theorem rescaleWords_eq (mul? : Word → Option Word) (mul : Word → Word) {code : LaneCode} (hc : CodeOk w code) (hr : ShrOk code) (n s : Nat) (hs : s < n)
    (a : Nat → Word) (hm : ∀ b k, k < 64 / w → mul? (laneVal w (a b) k) = some (mul (laneVal w (a b) k))) :
    rescaleWords ((w * n + 63) / 64) mul? code w n (w * s) (leftBitmask (w * n % 64)) a = some (M4rie.rescaleWords mul code w n s a) := by
  obtain ⟨h1, h2, h3, h4, h5⟩ := elem_bounds hw hs
  have hsL : s % (64 / w) < 64 / w := Nat.mod_lt _ hw.lpos
  have hsp := hw.spot s
  have run : ∀ ops b, opsOk w 0 ops = true → (∀ op ∈ ops, op.shr < 64) →
      laneRun mul? ops (a b) 0#64 = some (M4rie.laneRun mul ops (a b) 0#64) := by
    intro ops b h1 h2
    have := laneRun_eq hw mul? mul (a b) (hm b) ops 0 0#64 h1 h2
    simpa using this
  have first : laneRun mul? (fromCase (w * s / w % (64 / w)) code.first) (a (w * s / 64) >>> (w * s % 64)) 0#64 =
      some (M4rie.laneRun mul (fromCase (w * s / w % (64 / w)) code.first) (a (w * s / 64) >>> (w * s % 64)) 0#64) := by
    rw [hw.case, hw.spot s]
    exact laneRun_eq hw mul? mul _ (hm _) _ _ _ (hc.first _ hsL) (fun op ho => hr.first op (fromCase_mem ho))
  unfold rescaleWords M4rie.rescaleWords
  simp only []
  rw [rightMask_eq (by omega), Option.bind_some, ldr_eq h2, Option.bind_some, shr_eq (by omega), Option.bind_some, first, Option.bind_some]
  by_cases hb : (w * n + 63) / 64 - w * s / 64 = 1
  · rw [if_pos hb, if_pos hb, Option.bind_some, str_eq h2, Option.bind_some, xorAt_eq h2]
  · rw [if_neg hb, if_neg hb, Option.bind_some, str_eq h2, Option.bind_some, xorAt_eq h2, Option.bind_some]
    generalize hu : (setWord a (w * s / 64) (a (w * s / 64) &&& ~~~rightBitmask (64 - w * s % 64)) (w * s / 64) ^^^
      M4rie.laneRun mul (fromCase (w * s / w % (64 / w)) code.first) (a (w * s / 64) >>> (w * s % 64)) 0#64 &&& rightBitmask (64 - w * s % 64)) = u
    generalize ha1 : setWord (setWord a (w * s / 64) (a (w * s / 64) &&& ~~~rightBitmask (64 - w * s % 64))) (w * s / 64) u = a1
    have hag : AgreeFrom a (w * s / 64 + 1) a1 := by
      intro i hi
      rw [← ha1]; unfold setWord; rw [if_neg (by omega), if_neg (by omega)]
    obtain ⟨m1, m2, m3⟩ := midLoops_eq ((w * n + 63) / 64) (fun ops _ v => laneRun mul? ops v 0#64) (fun ops _ v => M4rie.laneRun mul ops v 0#64) a code
      (fun ops ho j _ => run ops j (hc.unrolled ops ho) (hr.unrolled ops ho)) (fun j _ => run _ j hc.single hr.single) (w * s / 64 + 1) a1 (by omega) hag
    rw [m1, Option.bind_some, ldr_eq m2, Option.bind_some]
    simp only [m3 _ le_rfl]
    rw [lastRun_eq hw mul? mul _ (hm _) _ _ _ (by split_ifs <;> [rfl; exact (Nat.mod_lt _ hw.lpos).le]) (last_case hw n hc), Option.bind_some, str_eq m2]

theorem addmulWords_eq (mul? : Word → Option Word) (mul : Word → Word) {code : LaneCode} (hc : CodeOk w code) (hr : ShrOk code) (n s : Nat) (hs : s < n)
    (a f : Nat → Word) (hm : ∀ b k, k < 64 / w → mul? (laneVal w (f b) k) = some (mul (laneVal w (f b) k))) :
    addmulWords ((w * n + 63) / 64) ((w * n + 63) / 64) mul? code w n (w * s) (leftBitmask (w * n % 64)) a f =
      some (M4rie.addmulWords mul code w n s a f) := by
  obtain ⟨h1, h2, h3, h4, h5⟩ := elem_bounds hw hs
  have hsL : s % (64 / w) < 64 / w := Nat.mod_lt _ hw.lpos
  have hsp := hw.spot s
  have run : ∀ ops b v, opsOk w 0 ops = true → (∀ op ∈ ops, op.shr < 64) →
      laneRun mul? ops (f b) v = some (M4rie.laneRun mul ops (f b) v) := by
    intro ops b v h1 h2
    have := laneRun_eq hw mul? mul (f b) (hm b) ops 0 v h1 h2
    simpa using this
  have first : ∀ t, laneRun mul? (fromCase (w * s / w % (64 / w)) code.first) (f (w * s / 64) >>> (w * s % 64)) t =
      some (M4rie.laneRun mul (fromCase (w * s / w % (64 / w)) code.first) (f (w * s / 64) >>> (w * s % 64)) t) := by
    intro t
    rw [hw.case, hw.spot s]
    exact laneRun_eq hw mul? mul _ (hm _) _ _ _ (hc.first _ hsL) (fun op ho => hr.first op (fromCase_mem ho))
  unfold addmulWords M4rie.addmulWords
  simp only []
  rw [ldr_eq h2, Option.bind_some, shr_eq (by omega), Option.bind_some, ldr_eq h2, Option.bind_some, first, Option.bind_some]
  by_cases hb : (w * n + 63) / 64 - w * s / 64 = 1
  · rw [if_pos hb, if_pos hb, Option.bind_some, str_eq h2, Option.bind_some, xorAt_eq h2]
  · rw [if_neg hb, if_neg hb, str_eq h2, Option.bind_some]
    generalize ha1 : setWord a (w * s / 64) _ = a1
    have hag : AgreeFrom a (w * s / 64 + 1) a1 := by
      intro i hi
      rw [← ha1]; unfold setWord; rw [if_neg (by omega)]
    obtain ⟨m1, m2, m3⟩ := midLoops_eq ((w * n + 63) / 64) (fun ops j v => (ldr ((w * n + 63) / 64) f j).bind fun fj => laneRun mul? ops fj v)
      (fun ops j v => M4rie.laneRun mul ops (f j) v) a code
      (fun ops ho j hj => by rw [ldr_eq hj, Option.bind_some]; exact run ops j _ (hc.unrolled ops ho) (hr.unrolled ops ho))
      (fun j hj => by rw [ldr_eq hj, Option.bind_some]; exact run _ j _ hc.single hr.single) (w * s / 64 + 1) a1 (by omega) hag
    rw [m1, Option.bind_some, ldr_eq m2, Option.bind_some, ldr_eq m2, Option.bind_some]
    simp only [m3 _ le_rfl]
    rw [lastRun_eq hw mul? mul _ (hm _) _ _ _ (by split_ifs <;> [rfl; exact (Nat.mod_lt _ hw.lpos).le]) (last_case hw n hc), Option.bind_some, str_eq m2]
end ops

/-! ### row operations on packed matrices -/

/-- `w*n` fits in an `int` -/
def Sm (ff : Gf2e) (n : Nat) : Prop := degreeToW ff.degree * n < 2 ^ 31

theorem lane_mul {A : Mzed} {M : Nat → Nat → Elem ff} (h : Rep A M) (x : Elem ff) (r b k : Nat) (hk : k < 64 / A.w) :
    fmul ff x.1 (laneVal A.w (A.words r b) k) = some (gf2eMul ff x.1 (laneVal A.w (A.words r b) k)) := by
  rw [lane_eq_entry h.wf _ _ _ hk]
  have : entryOf A.w A.words r (b * (64 / A.w) + k) = (M r (b * (64 / A.w) + k)).1 := h.entry _ _
  unfold Mzed.entry
  rw [this, fmul_elem, Elem.mul_val]

theorem rescaleRow_pack (dbg : Bool) (X : Mat ff) {r s : Nat} (hr : r < X.nrows) (hs : s < X.ncols) (hsm : Sm ff X.ncols) (x : Elem ff) :
    rescaleRow dbg X.pack r s x.1 = some (X.rescale r s x).pack := by
  rw [← rescale_pack X r s hs x]
  have hw : OkW X.pack.w := okW_ff (ff := ff)
  obtain ⟨code, h1, h2, h3⟩ := rescaleCode_shr hw
  have hi : X.pack.w * s < 2 ^ 31 := by
    unfold Sm at hsm
    exact lt_of_le_of_lt (Nat.mul_le_mul_left _ hs.le) hsm
  unfold rescaleRow mzedRescaleRow
  rw [assert_eq (show s < X.pack.ncols from hs), Option.bind_some, int_eq hi, Option.bind_some, h1]
  show (rowOf X.pack r).bind _ = _
  rw [rowOf_eq (show r < X.pack.nrows from hr), Option.bind_some]
  have := rescaleWords_eq hw (fmul ff x.1) (gf2eMul ff x.1) h2 h3 X.ncols s hs (X.pack.words r) (fun b k hk => lane_mul (pack_rep X) x r b k hk)
  show (rescaleWords ((X.pack.w * X.ncols + 63) / 64) (fmul ff x.1) code X.pack.w X.ncols (X.pack.w * s) (leftBitmask (X.pack.w * X.ncols % 64)) (X.pack.words r)).bind _ = _
  rw [this]; rfl

theorem addMul_pack (dbg : Bool) (X Y : Mat ff) {ar br s : Nat} (har : ar < X.nrows) (hbr : br < Y.nrows) (hs : s < X.ncols)
    (hn : X.ncols = Y.ncols) (hf : X.fid = Y.fid) (hsm : Sm ff X.ncols) (x : Elem ff) :
    addMultipleOfRow dbg X.pack ar Y.pack br x.1 s = some (X.addMul ar Y br x s).pack := by
  rw [← M4rie.addMul_pack X Y ar br s hs x]
  have hw : OkW X.pack.w := okW_ff (ff := ff)
  obtain ⟨code, h1, h2, h3⟩ := addmulCode_shr hw
  have hi : X.pack.w * s < 2 ^ 31 := by
    unfold Sm at hsm
    exact lt_of_le_of_lt (Nat.mul_le_mul_left _ hs.le) hsm
  unfold addMultipleOfRow mzedAddMultipleOfRow
  rw [assert_eq (show X.pack.ncols = Y.pack.ncols ∧ X.pack.fid = Y.pack.fid from ⟨hn, hf⟩), Option.bind_some, assert_eq (show s < X.pack.ncols from hs), Option.bind_some]
  by_cases h0 : x.1 = 0#64
  · rw [if_pos h0, if_pos h0]
  rw [if_neg h0, if_neg h0]
  by_cases h1' : x.1 = 1#64
  · rw [if_pos h1', if_pos h1']
    exact addRow_eq dbg (pack_rep X) (pack_rep Y) har hbr hs hn hf hsm
  rw [if_neg h1', if_neg h1', int_eq hi, Option.bind_some, h1]
  show (rowOf Y.pack br).bind _ = _
  rw [rowOf_eq (show br < Y.pack.nrows from hbr), Option.bind_some, rowOf_eq (show ar < X.pack.nrows from har), Option.bind_some]
  have := addmulWords_eq hw (fmul ff x.1) (gf2eMul ff x.1) h2 h3 X.ncols s hs (X.pack.words ar) (Y.pack.words br) (fun b k hk => lane_mul (pack_rep Y) x br b k hk)
  show (addmulWords ((X.pack.w * X.ncols + 63) / 64) ((Y.pack.w * Y.ncols + 63) / 64) (fmul ff x.1) code X.pack.w X.ncols (X.pack.w * s)
    (leftBitmask (X.pack.w * X.ncols % 64)) (X.pack.words ar) (Y.pack.words br)).bind _ = _
  rw [← hn]
  rw [show Y.pack.w = X.pack.w from rfl, this]; rfl

theorem read_pack (X : Mat ff) {i j : Nat} (hi : i < X.nrows) (hj : j < X.ncols) (hsm : Sm ff X.ncols) : readElem X.pack i j = some (X.e i j).1 :=
  readElem_eq (pack_rep X) hi hj hsm

theorem write_pack (X : Mat ff) {i j : Nat} (hi : i < X.nrows) (hj : j < X.ncols) (hsm : Sm ff X.ncols) (x : Elem ff) :
    writeElem X.pack i j x.1 = some (X.set i j x).pack := by
  rw [← M4rie.write_pack]; exact writeElem_eq (pack_rep X) hi hj hsm x.1

theorem add_pack (X : Mat ff) {i j : Nat} (hi : i < X.nrows) (hj : j < X.ncols) (hsm : Sm ff X.ncols) (x : Elem ff) :
    addElem X.pack i j x.1 = some (X.addAt i j x).pack := by
  rw [← M4rie.add_pack]; exact addElem_eq (pack_rep X) hi hj hsm x.1

theorem rowSwap_pack (X : Mat ff) {a b : Nat} (ha : a < X.nrows) (hb : b < X.nrows) : rowSwap X.pack a b = some (X.swapRows a b).pack := by
  rw [← swapRows_pack]
  unfold rowSwap
  rw [need_eq (show a < X.pack.nrows ∧ b < X.pack.nrows from ⟨ha, hb⟩)]; rfl

theorem colSwap_pack (X : Mat ff) {a b start stop : Nat} (ha : a < X.ncols) (hb : b < X.ncols) (h1 : start ≤ stop) (h2 : stop ≤ X.nrows) (hsm : Sm ff X.ncols) :
    colSwapInRows X.pack a b start stop = some (X.swapColsIn a b start stop).pack := by
  rw [← swapColsIn_pack]
  unfold colSwapInRows mzedColSwapInRows
  have hw := elem_bounds (okW_ff (ff := ff)) ha
  have hw' := elem_bounds (okW_ff (ff := ff)) hb
  have hl := le_w (ff := ff)
  unfold Sm at hsm
  refine (forC_eq (fun _ A => A.ff = ff ∧ A.w = degreeToW ff.degree ∧ A.ncols = X.ncols ∧ A.nrows = X.nrows) _ _ _ _ ⟨rfl, rfl, rfl, rfl⟩ ?_).1
  rintro e A he ⟨e1, e2, e3, e4⟩
  have he' : e < ff.degree := he
  refine ⟨?_, e1, e2, e3, e4⟩
  rw [int_eq (by rw [e2]; omega), Option.bind_some, int_eq (by rw [e2]; omega), Option.bind_some,
    need_eq (by unfold Mzed.bitCols; rw [e2, e3, e4]; exact ⟨by omega, by omega, h1, h2⟩), Option.bind_some]

end field
end M4rie.Chk
