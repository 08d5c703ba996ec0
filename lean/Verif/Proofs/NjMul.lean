import Verif.Proofs.NjTable

/-! Newton-John multiplication. -/

namespace M4rie
open M4rie.Spec
variable {ff : Gf2e} [IsField ff]

theorem mzdCombine_entry {w : Nat} (hw : OkW w) (n : Nat) (C : Nat → Nat → Word) (cr : Nat) (B : Nat → Nat → Word) (br i j : Nat) :
    entryOf w (mzdCombine (w * n) C cr B br 0) i j =
      if i = cr ∧ j < n then entryOf w C cr j ^^^ entryOf w B br j else entryOf w C i j := by
  have hp := hw.pos
  apply entry_ext hw
  · intro q hq
    unfold mzdCombine
    rw [bitAt_ofBits]
    have : w * j + q < w * n ↔ j < n := by
      constructor
      · intro h
        by_contra h'
        have := Nat.mul_le_mul_left w (Nat.le_of_not_lt h')
        omega
      · intro h
        have := Nat.mul_le_mul_left w (Nat.succ_le_of_lt h)
        rw [Nat.mul_succ] at this
        omega
    by_cases h1 : i = cr
    · subst h1
      by_cases h2 : j < n
      · rw [if_pos ⟨rfl, by omega, this.2 h2⟩, if_pos ⟨rfl, h2⟩, BitVec.getLsbD_xor, ← entry_bits hw, ← entry_bits hw] <;> assumption
      · rw [if_neg (by rw [this]; tauto), if_neg (by tauto), entry_bits hw] <;> assumption
    · rw [if_neg (by tauto), if_neg (by tauto), entry_bits hw] <;> assumption
  · split_ifs
    · exact xor_lt_two_pow (entryOf_lt hw _ _ _) (entryOf_lt hw _ _ _)
    · exact entryOf_lt hw _ _ _

def Mat.addRowOf (C : Mat ff) (i : Nat) (v : Nat → Elem ff) : Mat ff :=
  { C with e := fun a j => if a = i ∧ j < C.ncols then C.e a j + v j else C.e a j }

theorem combine_pack (C XT : Mat ff) (j x : Nat) :
    mzedCombine C.pack j XT.pack x = (C.addRowOf j (XT.e x)).pack := by
  have h : Rep (mzedCombine C.pack j XT.pack x) (C.addRowOf j (XT.e x)).e := by
    refine (pack_rep C).setWords _ fun i p => ?_
    rw [pack_w]
    unfold Mzed.bitCols
    rw [pack_w, mzdCombine_entry okW_ff]
    have e : (C.addRowOf j (XT.e x)).e i p = if i = j ∧ p < C.ncols then C.e i p + XT.e x p else C.e i p := rfl
    rw [e]
    by_cases h : i = j ∧ p < C.ncols
    · rw [if_pos (show i = j ∧ p < C.pack.ncols from h), if_pos h, h.1]
      have h1 := (pack_rep C).entry j p
      have h2 := (pack_rep XT).entry x p
      rw [pack_w] at h1 h2
      rw [h1, h2]; rfl
    · rw [if_neg (show ¬ (i = j ∧ p < C.pack.ncols) from h), if_neg h]
      exact (pack_rep C).entry i p
  exact h.eq_pack (B := C.pack) ⟨rfl, rfl, rfl⟩

theorem xorTables_lane {Ts : Nat → Njt} {XTs : Nat → Mat ff} {n : Nat} (h : ∀ q, q < n → (Ts q).T = (XTs q).pack)
    (x : Nat → Nat) (j : Nat) :
    laneVal (degreeToW ff.degree) (xorTables Ts x (j / (64 / degreeToW ff.degree)) n) (j % (64 / degreeToW ff.degree)) =
      (∑ q ∈ Finset.range n, (XTs q).e (x q) j).1 := by
  have hl := (okW_ff (ff := ff)).le
  induction n with
  | zero => simp [xorTables]
  | succ n ih =>
    rw [xorTables, lane_xor _ _ _ _ (by omega), ih (fun q hq => h q (by omega)), Finset.sum_range_succ, h n (by omega), pack_lane]
    rfl

/-- adding table rows to the words `P` of row `r` -/
theorem addTables_pack (C : Mat ff) (r : Nat) {Ts : Nat → Njt} {XTs : Nat → Mat ff} {n : Nat}
    (h : ∀ q, q < n → (Ts q).T = (XTs q).pack) (x : Nat → Nat) (P : Nat → Prop) [DecidablePred P] :
    C.pack.withRow r (fun b => if P b then C.pack.words r b ^^^ xorTables Ts x b n else C.pack.words r b) =
      Mat.pack { C with e := fun i j => if i = r ∧ P (j / (64 / degreeToW ff.degree)) then C.e i j + ∑ q ∈ Finset.range n, (XTs q).e (x q) j else C.e i j } := by
  have hl := (okW_ff (ff := ff)).le
  have hr : Rep (C.pack.withRow r (fun b => if P b then C.pack.words r b ^^^ xorTables Ts x b n else C.pack.words r b))
      (fun i j => if i = r ∧ P (j / (64 / degreeToW ff.degree)) then C.e i j + ∑ q ∈ Finset.range n, (XTs q).e (x q) j else C.e i j) := by
    refine (pack_rep C).setWords _ fun i j => ?_
    rw [pack_w, setRow_pack_entry]
    by_cases hi : i = r
    · subst hi
      rw [if_pos rfl]
      by_cases hP : P (j / (64 / degreeToW ff.degree))
      · rw [if_pos hP, if_pos ⟨rfl, hP⟩, lane_xor _ _ _ _ (by omega), xorTables_lane h, pack_lane]; rfl
      · rw [if_neg hP, if_neg (by tauto), pack_lane]
    · rw [if_neg hi, if_neg (by tauto)]
  exact hr.eq_pack (B := C.pack) ⟨rfl, rfl, rfl⟩

/-- all tables are usable for `n` columns -/
def TabsOk (ff : Gf2e) [IsField ff] (n : Nat) (Ts : Nat → Njt) : Prop := ∀ q, ∃ XM XT : Mat ff, NjtOk ff n (Ts q) XM XT

theorem makeTables_spec {cb : Codebook} (hcb : cb.Ok ff.degree) (X : Mat ff) (r c dc n : Nat) {Ts : Nat → Njt}
    (hT : TabsOk ff X.ncols Ts) (hc : ∀ q, q < n → c + dc * q < X.ncols) :
    TabsOk ff X.ncols (makeTables cb X.pack r c dc n Ts) ∧
    ∃ XTs : Nat → Mat ff, ∀ q, q < n → (makeTables cb X.pack r c dc n Ts q).T = (XTs q).pack ∧
      (∀ i j, X.ncols ≤ j → (XTs q).e i j = 0) ∧
      TableFor (makeTables cb X.pack r c dc n Ts q) X (r + q) (c + dc * q) (XTs q) := by
  unfold makeTables
  refine forN_inv (fun n Ts => TabsOk ff X.ncols Ts ∧ ∃ XTs : Nat → Mat ff, ∀ q, q < n → (Ts q).T = (XTs q).pack ∧
      (∀ i j, X.ncols ≤ j → (XTs q).e i j = 0) ∧ TableFor (Ts q) X (r + q) (c + dc * q) (XTs q)) _ Ts n ⟨hT, fun _ => X, fun q hq => by omega⟩ ?_
  rintro k Ts' hk ⟨h1, XTs, h2⟩
  obtain ⟨XM, XT, h3⟩ := h1 k
  obtain ⟨XM', XT', h4, h5, -, -⟩ := mzedMakeTable_spec hcb X (r + k) (c + dc * k) h3 (hc k hk)
  refine ⟨fun q => ?_, fun q => if q = k then XT' else XTs q, fun q hq => ?_⟩
  · by_cases hq : q = k
    · subst hq
      simp only [if_true]
      exact ⟨XM', XT', h4⟩
    · simp only [if_neg hq]; exact h1 q
  · by_cases hqk : q = k
    · subst hqk
      simp only [if_true]
      exact ⟨h4.Teq, h4.T0, h5⟩
    · simp only [if_neg hqk]; exact h2 q (by omega)

theorem njLo_zero : njLo ff 0 = 0 := by unfold njLo; simp

/-- entries `k0 ≤ k < k0+n` of row `i` of `A` times rows of `B` -/
def rowProd (A B : Mat ff) (i k0 n j : Nat) : Elem ff := ∑ q ∈ Finset.range n, A.e i (k0 + q) * B.e (k0 + q) j

theorem rowProd_add (A B : Mat ff) (i a n m j : Nat) : rowProd A B i a (n + m) j = rowProd A B i a n j + rowProd A B i (a + n) m j := by
  unfold rowProd
  rw [Finset.sum_range_add]
  simp only [Nat.add_assoc]

theorem mulNj0From_spec {cb : Codebook} (hcb : cb.Ok ff.degree) (C A B : Mat ff) {T0 : Njt} {XM XT : Mat ff}
    (hT : NjtOk ff B.ncols T0 XM XT) (hB : 0 < B.ncols) (hC : C.ncols = B.ncols) (hr : C.nrows = A.nrows) (k0 n : Nat) :
    ∃ (C' : Mat ff) (T' : Njt) (XM' XT' : Mat ff), mulNj0From cb C.pack A.pack B.pack T0 k0 n = (C'.pack, T') ∧
      NjtOk ff B.ncols T' XM' XT' ∧ C'.nrows = C.nrows ∧ C'.ncols = C.ncols ∧ C'.fid = C.fid ∧
      ∀ i j, C'.e i j = if i < C.nrows ∧ j < C.ncols then C.e i j + rowProd A B i k0 n j else C.e i j := by
  unfold mulNj0From
  refine forN_inv (fun n (s : Mzed × Njt) => ∃ (C' : Mat ff) (T' : Njt) (XM' XT' : Mat ff), s = (C'.pack, T') ∧
      NjtOk ff B.ncols T' XM' XT' ∧ C'.nrows = C.nrows ∧ C'.ncols = C.ncols ∧ C'.fid = C.fid ∧
      ∀ i j, C'.e i j = if i < C.nrows ∧ j < C.ncols then C.e i j + rowProd A B i k0 n j else C.e i j) _ _ n
    ⟨C, T0, XM, XT, rfl, hT, rfl, rfl, rfl, fun i j => by simp [rowProd]⟩ ?_
  rintro k s hk ⟨C', T', XM', XT', rfl, h1, h2, h3, h4, h5⟩
  simp only
  obtain ⟨XM2, XT2, g1, g2, -, -⟩ := mzedMakeTable_spec hcb B (k0 + k) 0 h1 hB
  have inner := forN_inv (fun m (E : Mzed) => ∃ Y : Mat ff, E = Y.pack ∧ Y.nrows = C.nrows ∧ Y.ncols = C.ncols ∧ Y.fid = C.fid ∧
      ∀ i j, Y.e i j = if i < m ∧ j < C.ncols then C'.e i j + A.e i (k0 + k) * B.e (k0 + k) j else C'.e i j)
    (fun j C => mzedCombine C j (mzedMakeTable cb T' B.pack (k0 + k) 0).T
      ((mzedMakeTable cb T' B.pack (k0 + k) 0).L (mzedReadElem A.pack j (k0 + k)).toNat)) C'.pack A.nrows
    ⟨C', rfl, h2, h3, h4, fun i j => by simp⟩ (by
      rintro m E hm ⟨Y, rfl, y1, y2, y3, y4⟩
      rw [g1.Teq, combine_pack, read_pack]
      refine ⟨_, rfl, y1, y2, y3, fun i j => ?_⟩
      unfold Mat.addRowOf
      simp only [y2]
      rw [y4]
      by_cases him : i = m
      · subst him
        by_cases hj : j < C.ncols
        · rw [if_pos ⟨rfl, hj⟩, if_neg (by omega), if_pos ⟨by omega, hj⟩, g2.row _ _ (by rw [njLo_zero]; omega), if_pos ⟨by omega, by omega⟩]
        · rw [if_neg (by omega), if_neg (by omega), if_neg (by omega)]
      · rw [if_neg (c := i = m ∧ j < C.ncols) (by omega)]
        apply if_congr _ rfl rfl
        omega)
  obtain ⟨Y, hY, y1, y2, y3, y4⟩ := inner
  refine ⟨Y, _, XM2, XT2, ?_, g1, y1, y2, y3, fun i j => ?_⟩
  · rw [← hY]; rfl
  · rw [y4, h5, ← hr]
    by_cases hij : i < C.nrows ∧ j < C.ncols
    · rw [if_pos hij, if_pos hij, if_pos hij, rowProd_add]
      simp [rowProd, add_assoc]
    · rw [if_neg hij, if_neg hij, if_neg hij]

theorem njGiant_spec {cb : Codebook} (hcb : cb.Ok ff.degree) (C A B : Mat ff) {Ts : Nat → Njt} (hT : TabsOk ff B.ncols Ts)
    (hB : 0 < B.ncols) (hC : C.ncols = B.ncols) (g count n : Nat) :
    ∃ (C' : Mat ff) (Ts' : Nat → Njt), njGiant cb A.pack B.pack g count n (C.pack, Ts) = (C'.pack, Ts') ∧
      TabsOk ff B.ncols Ts' ∧ C'.nrows = C.nrows ∧ C'.ncols = C.ncols ∧ C'.fid = C.fid ∧
      ∀ i j, C'.e i j = if g ≤ i ∧ i < g + count ∧ j < C.ncols then C.e i j + rowProd A B i 0 (8 * n) j else C.e i j := by
  unfold njGiant
  refine forN_inv (fun n (s : Mzed × (Nat → Njt)) => ∃ (C' : Mat ff) (Ts' : Nat → Njt), s = (C'.pack, Ts') ∧
      TabsOk ff B.ncols Ts' ∧ C'.nrows = C.nrows ∧ C'.ncols = C.ncols ∧ C'.fid = C.fid ∧
      ∀ i j, C'.e i j = if g ≤ i ∧ i < g + count ∧ j < C.ncols then C.e i j + rowProd A B i 0 (8 * n) j else C.e i j) _ _ n
    ⟨C, Ts, rfl, hT, rfl, rfl, rfl, fun i j => by simp [rowProd]⟩ ?_
  rintro k s hk ⟨C', Ts', rfl, h1, h2, h3, h4, h5⟩
  simp only
  obtain ⟨t1, XTs, t2⟩ := makeTables_spec hcb B (8 * k) 0 0 8 h1 (fun q _ => by omega)
  have inner := forN_inv (fun m (E : Mzed) => ∃ Y : Mat ff, E = Y.pack ∧ Y.nrows = C.nrows ∧ Y.ncols = C.ncols ∧ Y.fid = C.fid ∧
      ∀ i j, Y.e i j = if g ≤ i ∧ i < g + m ∧ j < C.ncols then C'.e i j + rowProd A B i (8 * k) 8 j else C'.e i j)
    (fun babystep C => mzedCombine8 C (g + babystep) (makeTables cb B.pack (8 * k) 0 0 8 Ts')
      (fun q => (makeTables cb B.pack (8 * k) 0 0 8 Ts' q).L (mzedReadElem A.pack (g + babystep) (8 * k + q)).toNat)) C'.pack count
    ⟨C', rfl, h2, h3, h4, fun i j => by rw [if_neg (by omega)]⟩ (by
      rintro m E hm ⟨Y, rfl, y1, y2, y3, y4⟩
      have e := addTables_pack Y (g + m) (fun q hq => (t2 q hq).1)
        (fun q => (makeTables cb B.pack (8 * k) 0 0 8 Ts' q).L (mzedReadElem A.pack (g + m) (8 * k + q)).toNat) (fun b => b < Y.pack.width)
      refine ⟨_, e, y1, y2, y3, fun i j => ?_⟩
      simp only
      have hsum : ∑ q ∈ Finset.range 8, (XTs q).e ((makeTables cb B.pack (8 * k) 0 0 8 Ts' q).L (mzedReadElem A.pack (g + m) (8 * k + q)).toNat) j
          = if j < C.ncols then rowProd A B (g + m) (8 * k) 8 j else 0 := by
        unfold rowProd
        by_cases hj : j < C.ncols
        · rw [if_pos hj]
          apply Finset.sum_congr rfl
          intro q hq
          rw [Finset.mem_range] at hq
          rw [read_pack, (t2 q hq).2.2.row _ _ (by rw [Nat.zero_mul, Nat.add_zero, njLo_zero]; omega), if_pos (by omega)]
        · rw [if_neg hj]
          apply Finset.sum_eq_zero
          intro q hq
          rw [Finset.mem_range] at hq
          exact (t2 q hq).2.1 _ _ (by omega)
      have hwid : j < C.ncols → j / (64 / degreeToW ff.degree) < Y.pack.width := by
        intro hj
        unfold Mzed.width Mzed.bitCols
        rw [pack_w, pack_ncols, y2, (okW_ff (ff := ff)).width]
        exact start_lt_width okW_ff _ _ hj
      rw [hsum, y4]
      by_cases him : i = g + m
      · subst him
        by_cases hj : j < C.ncols
        · rw [if_pos ⟨rfl, hwid hj⟩, if_neg (by omega), if_pos (by omega), if_pos (by omega)]
        · rw [if_neg (c := j < C.ncols) hj, add_zero, ite_self, if_neg (by omega), if_neg (by omega)]
      · rw [if_neg (by tauto)]
        apply if_congr _ rfl rfl
        omega)
  obtain ⟨Y, hY, y1, y2, y3, y4⟩ := inner
  refine ⟨Y, _, ?_, t1, y1, y2, y3, fun i j => ?_⟩
  · rw [← hY]
  · rw [y4, h5]
    by_cases hij : g ≤ i ∧ i < g + count ∧ j < C.ncols
    · rw [if_pos hij, if_pos hij, if_pos hij, Nat.mul_succ, rowProd_add, Nat.zero_add, add_assoc]
    · rw [if_neg hij, if_neg hij, if_neg hij]

/-- `_mzed_mul_newton_john`: `C += A*B` -/
theorem mulNewtonJohnAcc_pack {cb : Codebook} (hcb : cb.Ok ff.degree) (bs : Nat) (hbs : degreeToW ff.degree ≤ bs) (C A B : Mat ff)
    (hB : 0 < B.ncols) (hC : C.ncols = B.ncols) (hr : C.nrows = A.nrows) :
    mzedMulNewtonJohnAcc cb bs C.pack A.pack B.pack = (C.addMulM A B).pack := by
  unfold mzedMulNewtonJohnAcc
  by_cases hdeg : A.pack.ff.degree > A.pack.nrows
  · rw [if_pos hdeg, mulNaiveAcc_pack]
  · rw [if_neg hdeg]
    simp only [pack_ff, pack_nrows, pack_ncols, pack_w, pack_fid]
    have hTinit : TabsOk ff B.ncols (fun _ => njtInit ff B.fid B.ncols) := fun _ => njtInit_ok _ _
    set blk := njBlocksize bs (degreeToW ff.degree) A.nrows with hblk
    have hblkpos : 0 < blk := by
      rw [hblk]
      unfold njBlocksize
      split_ifs
      · exact Nat.div_pos hbs okW_ff.pos
      · norm_num
    clear_value blk
    have hend : 8 * (A.ncols / 8) ≤ A.ncols := Nat.mul_div_le _ _
    have hsteps : A.nrows / blk * blk ≤ A.nrows := Nat.div_mul_le_self _ _
    have big := forN_inv (fun m (s : Mzed × (Nat → Njt)) => ∃ (C' : Mat ff) (Ts' : Nat → Njt), s = (C'.pack, Ts') ∧
        TabsOk ff B.ncols Ts' ∧ C'.nrows = C.nrows ∧ C'.ncols = C.ncols ∧ C'.fid = C.fid ∧
        ∀ i j, C'.e i j = if i < m * blk ∧ j < C.ncols then C.e i j + rowProd A B i 0 (8 * (A.ncols / 8)) j else C.e i j)
      (fun g s => njGiant cb A.pack B.pack (g * blk) blk (A.ncols / 8) s) (C.pack, fun _ => njtInit ff B.fid B.ncols) (A.nrows / blk)
      ⟨C, _, rfl, hTinit, rfl, rfl, rfl, fun i j => by simp⟩ (by
        rintro g s hg ⟨C', Ts', rfl, h1, h2, h3, h4, h5⟩
        obtain ⟨C2, Ts2, c1, c2, c3, c4, c5, c6⟩ := njGiant_spec hcb C' A B h1 hB (h3.trans hC) (g * blk) blk (A.ncols / 8)
        refine ⟨C2, Ts2, c1, c2, c3.trans h2, c4.trans h3, c5.trans h4, fun i j => ?_⟩
        rw [c6, h5, h3]
        have hsm : (g + 1) * blk = g * blk + blk := by ring
        by_cases ha : i < g * blk
        · rw [if_neg (by omega)]
          apply if_congr _ rfl rfl
          omega
        · by_cases hb : g * blk ≤ i ∧ i < g * blk + blk ∧ j < C.ncols
          · rw [if_pos hb, if_neg (by omega), if_pos (by omega)]
          · rw [if_neg hb, if_neg (by omega), if_neg (by omega)])
    obtain ⟨C1, Ts1, e1, t1, n1, m1, f1, v1⟩ := big
    rw [e1]
    obtain ⟨C2, Ts2, e2, t2, n2, m2, f2, v2⟩ := njGiant_spec hcb C1 A B t1 hB (m1.trans hC) (A.nrows / blk * blk)
      (A.nrows - A.nrows / blk * blk) (A.ncols / 8)
    rw [e2]
    have v2' : ∀ i j, C2.e i j = if i < C.nrows ∧ j < C.ncols then C.e i j + rowProd A B i 0 (8 * (A.ncols / 8)) j else C.e i j := by
      intro i j
      rw [v2, v1, m1]
      by_cases ha : i < A.nrows / blk * blk
      · rw [if_neg (by omega)]
        apply if_congr _ rfl rfl
        omega
      · by_cases hb : i < C.nrows ∧ j < C.ncols
        · rw [if_pos (by omega), if_neg (by omega), if_pos hb]
        · rw [if_neg (by omega), if_neg (by omega), if_neg hb]
    by_cases hrem : A.ncols % 8 ≠ 0
    · refine Eq.trans (if_pos hrem) ?_
      obtain ⟨XM, XT, hTok⟩ := t2 0
      obtain ⟨C3, T3, XM3, XT3, e3, -, n3, m3, f3, v3⟩ := mulNj0From_spec hcb C2 A B hTok hB ((m2.trans m1).trans hC) ((n2.trans n1).trans hr)
        (8 * (A.ncols / 8)) (A.ncols - 8 * (A.ncols / 8))
      simp only
      rw [e3]
      simp only
      congr 1
      refine Mat.ext (n3.trans (n2.trans n1)) (m3.trans (m2.trans m1)) (f3.trans (f2.trans f1)) ?_
      funext i j
      rw [v3, v2', n2, n1, m2, m1]
      unfold Mat.addMulM
      simp only
      by_cases hij : i < C.nrows ∧ j < C.ncols
      · rw [if_pos hij, if_pos hij, if_pos hij, add_assoc]
        congr 1
        have := rowProd_add A B i 0 (8 * (A.ncols / 8)) (A.ncols - 8 * (A.ncols / 8)) j
        rw [Nat.zero_add] at this
        rw [← this, Nat.add_sub_cancel' hend]
        simp [rowProd]
      · rw [if_neg hij, if_neg hij, if_neg hij]
    · refine Eq.trans (if_neg hrem) ?_
      simp only
      congr 1
      refine Mat.ext (n2.trans n1) (m2.trans m1) (f2.trans f1) ?_
      funext i j
      rw [v2']
      unfold Mat.addMulM rowProd
      have : 8 * (A.ncols / 8) = A.ncols := by omega
      simp [this]

end M4rie
