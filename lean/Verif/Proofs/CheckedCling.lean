import Verif.Proofs.CheckedConv

/-! The checked inverse conversion and the checked multiplication by a scalar. -/

namespace M4rie.Chk
open M4rie M4rie.Spec

/-- offset below `m`, slices below `d`, shift counts below 64 -/
def cOk (d m : Nat) (s : Nat × ClingOp × List ClingTerm) : Bool :=
  decide (s.1 < m) && s.2.2.all (fun t => decide (t.slice < d) && decide (t.lsh < 64) && decide (t.rsh < 64))

def cfits (n d : Nat) (P : ClingPass) : Bool := P.bulk.all (cOk d n) && casesOk (cOk d) P.cases

theorem clingVal_eq {n d Wf : Nat} {f : Nat → Nat → Word} {j2 : Nat} {t : ClingTerm}
    (h : (decide (t.slice < d) && decide (t.lsh < 64) && decide (t.rsh < 64)) = true) (hj : j2 < Wf) : clingVal n d Wf f j2 t = some (t.val n f j2) := by
  simp only [Bool.and_eq_true, decide_eq_true_eq] at h
  unfold clingVal
  rw [ldk_eq h.1.1 hj, Option.bind_some, shl_eq h.1.2, Option.bind_some, shr_eq h.2]
  rfl

theorem clingStmt_eq {n d Wf Wt m : Nat} {mask : Word} {f : Nat → Nat → Word} {j2 : Nat} {s : Nat × ClingOp × List ClingTerm}
    (h : cOk d m s = true) (hj : j2 < Wf) (hW : n * j2 + m ≤ Wt) (t : Nat → Word) : clingStmt n d Wf Wt mask f j2 s t = some (M4rie.clingStmt n mask f j2 t s) := by
  simp only [cOk, Bool.and_eq_true, decide_eq_true_eq] at h
  have h2 := List.all_eq_true.1 h.2
  unfold clingStmt M4rie.clingStmt
  rw [orC_eq _ (ClingTerm.val n f j2) _ (fun x hx => clingVal_eq (h2 x hx) hj), Option.bind_some]
  simp only []
  cases s.2.1 with
  | set => simp only []; rw [str_eq (by omega)]
  | or => simp only []; rw [ldr_eq (by omega), Option.bind_some, str_eq (by omega)]
  | masked => simp only []; rw [ldr_eq (by omega), Option.bind_some, str_eq (by omega)]

theorem clingRow_eq {n d Wf Wt : Nat} {P : ClingPass} (hP : cfits n d P = true) (hW : 0 < Wt) (hn : (Wt - 1) / n < Wf) (mask : Word)
    (f : Nat → Nat → Word) (t : Nat → Word) : clingRow n P d Wf Wt mask f t = P.row n Wt mask f t := by
  simp only [cfits, Bool.and_eq_true] at hP
  obtain ⟨p1, p2⟩ := hP
  rw [List.all_eq_true] at p1
  have hnb : n * ((Wt - 1) / n) ≤ Wt - 1 := Nat.mul_div_le _ _
  unfold clingRow ClingPass.row
  simp only []
  have bulk := (forC_eq (fun _ _ => True) (fun j2 t => runC (clingStmt n d Wf Wt mask f j2) P.bulk t)
    (fun j2 t => P.bulk.foldl (M4rie.clingStmt n mask f j2) t) ((Wt - 1) / n) t trivial (by
    intro j2 t hj _
    refine ⟨?_, trivial⟩
    have hj' : n * j2 + n ≤ Wt := by
      have : n * (j2 + 1) ≤ n * ((Wt - 1) / n) := Nat.mul_le_mul_left _ hj
      have e : n * (j2 + 1) = n * j2 + n := Nat.mul_succ _ _
      omega
    exact runC_eq _ _ _ (fun s hs t => clingStmt_eq (p1 s hs) (by omega) hj' t) t)).1
  rw [bulk, Option.bind_some]
  cases hd : P.cases.dropWhile (fun c => c.1 != Wt - n * ((Wt - 1) / n)) with
  | nil => rfl
  | cons c cs =>
    obtain ⟨h1, h2⟩ := casesOk_drop p2 hd
    simp only []
    have stm : ∀ s ∈ (c :: cs).flatMap (·.2), ∀ t, clingStmt n d Wf Wt mask f ((Wt - 1) / n) s t = some (M4rie.clingStmt n mask f ((Wt - 1) / n) t s) :=
      fun s hs t => clingStmt_eq (h2 s hs) hn (by omega) t
    cases P.fall with
    | true =>
      rw [if_pos rfl, if_pos rfl, ldr_eq (by omega), Option.bind_some, runC_eq _ _ _ stm, Option.bind_some, ldr_eq (by omega), Option.bind_some, str_eq (by omega)]
    | false =>
      rw [if_neg (by simp), if_neg (by simp)]
      exact runC_eq _ _ _ (fun s hs t => stm s (List.mem_flatMap.2 ⟨c, List.mem_cons_self, hs⟩) t) _

/-- what the passes keep -/
def Shp (T T0 : Mzed) : Prop := T.nrows = T0.nrows ∧ T.ncols = T0.ncols ∧ T.w = T0.w ∧ T.ff = T0.ff

theorem clingRunRow_eq {n : Nat} (hn : OkW n) {P : ClingPass} {F : Slice} {T T0 : Mzed} (hT : Shp T T0) (hr : T0.nrows ≤ F.nrows) (hc : T0.ncols = F.ncols)
    (h1 : 0 < F.ncols) (hw : T0.w = n) (hP : cfits n F.depth P = true) {i : Nat} (hi : i < T0.nrows) :
    clingRunRow n P F i T = P.runRow n F i T ∧ ∀ T', P.runRow n F i T = some T' → Shp T' T0 := by
  obtain ⟨t1, t2, t3, t4⟩ := hT
  obtain ⟨b1, b2⟩ := word_bound hn h1
  unfold clingRunRow ClingPass.runRow
  rw [need_eq (by omega), Option.bind_some, rowOf_eq (by omega), Option.bind_some, clingRow_eq hP (by
      unfold Mzed.width Mzed.bitCols; rw [t3, t2, hw, hc]; exact b1) (by
      unfold Mzed.width Mzed.bitCols swidth; rw [t3, t2, hw, hc]; exact b2)]
  refine ⟨?_, ?_⟩
  · cases ClingPass.row n P T.width T.highBitmask (fun k b => F.x k i b) (T.words i) <;> rfl
  · intro T' h
    obtain ⟨x, -, rfl⟩ := Option.map_eq_some_iff.1 h
    exact ⟨t1, t2, t3, t4⟩

theorem clingRun_eq {n : Nat} (hn : OkW n) {P : ClingPass} {F : Slice} {T T0 : Mzed} (hT : Shp T T0) (hr : T0.nrows ≤ F.nrows) (hc : T0.ncols = F.ncols)
    (h1 : 0 < F.ncols) (hw : T0.w = n) (hP : cfits n F.depth P = true) :
    clingRun n P F T = P.run n F T ∧ ∀ T', P.run n F T = some T' → Shp T' T0 := by
  unfold clingRun ClingPass.run
  exact forC_M (fun T => Shp T T0) _ _ _ _ hT (fun i T hi h => clingRunRow_eq hn h hr hc h1 hw hP (by have := hT.1; omega))

section
variable {T : Mzed} {F : Slice} (hr : T.nrows ≤ F.nrows) (hc : T.ncols = F.ncols) (h0 : mzdSliceIsZero F = false → 0 < F.ncols)
include hr hc h0

theorem cling2_eq (hw : T.w = 2) (hd : F.depth = 2) : cling2 T F = mzedCling2 T F := by
  unfold cling2 mzedCling2
  cases hz : mzdSliceIsZero F with
  | true => rfl
  | false =>
    simp only [Bool.false_eq_true, if_false]
    exact (clingRun_eq ok2 ⟨rfl, rfl, rfl, rfl⟩ hr hc (h0 hz) hw (by rw [hd]; decide +kernel)).1

theorem cling4_eq (hw : T.w = 4) (hd : F.depth = F.ff.degree) (h : F.ff.degree = 3 ∨ F.ff.degree = 4) : cling4 T F = mzedCling4 T F := by
  unfold cling4 mzedCling4
  cases hz : mzdSliceIsZero F with
  | true => rfl
  | false =>
    simp only [Bool.false_eq_true, if_false]
    rcases h with h | h <;> rw [h]
    · rw [if_neg (by decide), if_neg (by decide)]
      exact (clingRun_eq ok4 ⟨rfl, rfl, rfl, rfl⟩ hr hc (h0 hz) hw (by rw [hd, h]; decide +kernel)).1
    · rw [if_pos rfl, if_pos rfl]
      exact (clingRun_eq ok4 ⟨rfl, rfl, rfl, rfl⟩ hr hc (h0 hz) hw (by rw [hd, h]; decide +kernel)).1

theorem cling8_eq (hw : T.w = 8) (hd : F.depth = F.ff.degree) (h : 5 ≤ F.ff.degree ∧ F.ff.degree ≤ 8) : cling8 T F = mzedCling8 T F := by
  unfold cling8 mzedCling8
  cases hz : mzdSliceIsZero F with
  | true => rfl
  | false =>
    simp only [Bool.false_eq_true, if_false]
    have : F.ff.degree = 5 ∨ F.ff.degree = 6 ∨ F.ff.degree = 7 ∨ F.ff.degree = 8 := by omega
    rcases this with h | h | h | h <;> rw [h] <;>
      exact (clingRun_eq ok8 ⟨rfl, rfl, rfl, rfl⟩ hr hc (h0 hz) hw (by rw [hd, h]; decide +kernel)).1

theorem cling16_eq (hw : T.w = 16) (hd : F.depth = F.ff.degree) (hT : T.ff.degree = F.ff.degree) (h : 9 ≤ F.ff.degree ∧ F.ff.degree ≤ 16) :
    cling16 T F = mzedCling16 T F := by
  unfold cling16 mzedCling16
  cases hz : mzdSliceIsZero F with
  | true => rfl
  | false =>
    simp only [Bool.false_eq_true, if_false]
    have h1 := h0 hz
    have mono : ∀ {P d d'}, d ≤ d' → cfits 16 d P = true → cfits 16 d' P = true := by
      intro P d d' hdd h
      have ok : ∀ m s, cOk d m s = true → cOk d' m s = true := by
        intro m s h
        simp only [cOk, Bool.and_eq_true, List.all_eq_true, decide_eq_true_eq] at h ⊢
        exact ⟨h.1, fun t ht => ⟨⟨by have := (h.2 t ht).1.1; omega, (h.2 t ht).1.2⟩, (h.2 t ht).2⟩⟩
      have cs : ∀ l, casesOk (cOk d) l = true → casesOk (cOk d') l = true := by
        intro l
        induction l with
        | nil => intro _; rfl
        | cons c l ih =>
          intro h
          unfold casesOk at h ⊢
          rw [Bool.and_eq_true] at h ⊢
          exact ⟨List.all_eq_true.2 fun s hs => ok _ _ (List.all_eq_true.1 h.1 s hs), ih h.2⟩
      simp only [cfits, Bool.and_eq_true] at h ⊢
      exact ⟨List.all_eq_true.2 fun s hs => ok _ _ (List.all_eq_true.1 h.1 s hs), cs _ h.2⟩
    obtain ⟨e1, s1⟩ := clingRun_eq (T := T) ok16 ⟨rfl, rfl, rfl, rfl⟩ hr hc h1 hw (mono (by omega : 9 ≤ F.depth) (by decide +kernel) : cfits 16 F.depth clingPass16_lo = true)
    rw [e1]
    cases r1 : clingPass16_lo.run 16 F T with
    | none => rfl
    | some T1 =>
      have S1 := s1 T1 r1
      have hdeg : T1.ff.degree = F.ff.degree := by rw [S1.2.2.2, hT]
      simp only [Option.bind_some]
      by_cases h12 : T1.ff.degree < 12
      · rw [if_pos h12, if_pos h12]
        have : T1.ff.degree = 9 ∨ T1.ff.degree = 10 ∨ T1.ff.degree = 11 := by omega
        rcases this with h | h | h <;> rw [h] <;>
          exact (clingRun_eq ok16 S1 hr hc h1 hw (by rw [hd, ← hdeg, h]; decide +kernel)).1
      · rw [if_neg h12, if_neg h12]
        refine (forC_M (fun T' => Shp T' T) _ _ _ _ S1 ?_).1
        intro i T2 hi S2
        obtain ⟨e2, s2⟩ := clingRunRow_eq ok16 S2 hr hc h1 hw (mono (by omega : 12 ≤ F.depth) (by decide +kernel) : cfits 16 F.depth clingPass16_mid = true) (i := i)
          (by have := S1.1; omega)
        rw [e2]
        cases r2 : clingPass16_mid.runRow 16 F i T2 with
        | none => exact ⟨rfl, by intro s' h; cases h⟩
        | some T3 =>
          have S3 := s2 T3 r2
          have hdeg3 : T3.ff.degree = F.ff.degree := by rw [S3.2.2.2, hT]
          simp only [Option.bind_some]
          have : T3.ff.degree = 12 ∨ T3.ff.degree = 13 ∨ T3.ff.degree = 14 ∨ T3.ff.degree = 15 ∨ T3.ff.degree = 16 := by omega
          rcases this with h | h | h | h | h <;> rw [h]
          · exact ⟨rfl, fun s' h => by obtain rfl := Option.some.inj h; exact S3⟩
          all_goals exact clingRun_eq ok16 S3 hr hc h1 hw (by rw [hd, ← hdeg3, h]; decide +kernel)

theorem clingDispatch_eq (hw : T.w = degreeToW F.ff.degree) (hd : F.depth = F.ff.degree) (hT : T.ff.degree = F.ff.degree) (h2 : 2 ≤ F.ff.degree) (h16 : F.ff.degree ≤ 16) :
    clingDispatch T F = mzedClingDispatch T F := by
  unfold clingDispatch mzedClingDispatch
  have : F.ff.degree = 2 ∨ F.ff.degree = 3 ∨ F.ff.degree = 4 ∨ F.ff.degree = 5 ∨ F.ff.degree = 6 ∨ F.ff.degree = 7 ∨ F.ff.degree = 8 ∨ F.ff.degree = 9 ∨
    F.ff.degree = 10 ∨ F.ff.degree = 11 ∨ F.ff.degree = 12 ∨ F.ff.degree = 13 ∨ F.ff.degree = 14 ∨ F.ff.degree = 15 ∨ F.ff.degree = 16 := by omega
  rcases this with h | h | h | h | h | h | h | h | h | h | h | h | h | h | h <;> rw [h] at hw ⊢ <;> simp only []
  · exact cling2_eq hr hc h0 hw (by omega)
  iterate 2 exact cling4_eq hr hc h0 hw hd (by omega)
  iterate 4 exact cling8_eq hr hc h0 hw hd (by omega)
  iterate 8 exact cling16_eq hr hc h0 hw hd hT (by omega)

end

/-! ### multiplication by a scalar -/

theorem t16Entry_eq (ff : Gf2e) (hd : ff.degree < 64) {w : Nat} (hw : w < 64) (a i : Word) : ∀ m, m * w ≤ 64 → t16Entry ff w a i m = t16Entry? ff w a i m := by
  intro m
  induction m with
  | zero => intro _; rfl
  | succ m ih =>
    intro h
    have e : (m + 1) * w = m * w + w := Nat.succ_mul _ _
    show (t16Entry ff w a i m).bind _ = (t16Entry? ff w a i m).bind _
    rw [ih (by omega)]
    cases t16Entry? ff w a i m with
    | none => rfl
    | some r =>
      rcases Nat.eq_zero_or_pos w with h0 | h0
      · subst h0
        rw [Option.bind_some, shr_eq (by omega), Option.bind_some, shl_eq (by omega), Option.bind_some, fmul_eq ff hd]
        show _ = (t16Lane? _ _ _ _ _).bind _
        unfold t16Lane? twoPow
        cases gf2eMul? ff a (i >>> (m * 0) &&& 1#64 <<< 0 - 1#64) with
        | none => rfl
        | some v => rw [Option.bind_some, shl_eq (by omega)]; rfl
      rw [Option.bind_some, shr_eq (by omega), Option.bind_some, shl_eq (by omega), Option.bind_some, fmul_eq ff hd]
      show _ = (t16Lane? _ _ _ _ _).bind _
      unfold t16Lane? twoPow
      cases gf2eMul? ff a (i >>> (m * w) &&& 1#64 <<< w - 1#64) with
      | none => rfl
      | some v => rw [Option.bind_some, shl_eq (by omega)]; rfl

theorem fill_eq (e : Nat → Option Word) (m0 : Nat → Word) : ∀ N, forC (fun i (mul : Nat → Word) => (e i).bind fun v => some (setWord mul i v)) N m0 =
    if (List.range N).all (fun i => (e i).isSome) then some (fun i => if i < N then (e i).getD 0#64 else m0 i) else none := by
  intro N
  induction N with
  | zero => rfl
  | succ N ih =>
    show (forC _ N m0).bind _ = _
    rw [ih, List.range_succ, List.all_append]
    cases h1 : (List.range N).all (fun i => (e i).isSome) with
    | false => rfl
    | true =>
      simp only [if_true, Option.bind_some]
      cases h2 : e N with
      | none => simp [h2]
      | some v =>
        rw [if_pos (by simp [h2]), Option.bind_some]
        congr 1
        funext i
        unfold setWord
        by_cases hi : i = N
        · subst hi; simp [h2]
        · rw [if_neg hi]
          have : i < N ↔ i < N + 1 := by omega
          simp only [this]

theorem scalarWord_eq (mul mul' : Nat → Word) (h : ∀ i, i < 2 ^ 16 → mul i = mul' i) (tmp : Word) : scalarWord mul tmp = some (M4rie.scalarWord mul' tmp) := by
  have k0 := chunk_lt tmp 0
  have k1 := chunk_lt tmp 1
  have k2 := chunk_lt tmp 2
  have k3 := chunk_lt tmp 3
  simp only [Nat.mul_zero, BitVec.ushiftRight_zero, Nat.mul_one, Nat.reduceMul] at k0 k1 k2 k3
  unfold scalarWord M4rie.scalarWord t16Get
  simp only []
  rw [shr_eq (by omega), Option.bind_some, shr_eq (by omega), Option.bind_some, shr_eq (by omega), Option.bind_some, if_pos k3, Option.bind_some, shl_eq (by omega),
    Option.bind_some, if_pos k2, Option.bind_some, shl_eq (by omega), Option.bind_some, if_pos k1, Option.bind_some, shl_eq (by omega), Option.bind_some, if_pos k0,
    Option.bind_some, h _ k0, h _ k1, h _ k2, h _ k3]

theorem scalarRow_eq (mul mul' : Nat → Word) (h : ∀ i, i < 2 ^ 16 → mul i = mul' i) {Wb Wc : Nat} (hW : Wb = Wc) (h0 : 0 < Wc) (hi : Word) (b c : Nat → Word) :
    scalarRow mul Wb Wc hi b c = some (M4rie.scalarRow mul' Wc hi b c) := by
  subst hW
  unfold scalarRow M4rie.scalarRow
  rw [(forC_eq (fun _ _ => True) (fun j c => (ldr Wb b j).bind fun v => (scalarWord mul v).bind fun v => str Wb c j v)
    (fun j c => setWord c j (M4rie.scalarWord mul' (b j))) (Wb - 1) c trivial (by
    intro j c hj _
    refine ⟨?_, trivial⟩
    rw [ldr_eq (by omega), Option.bind_some, scalarWord_eq mul mul' h, Option.bind_some, str_eq (by omega)])).1, Option.bind_some]
  rw [need_eq ⟨h0, h0⟩, Option.bind_some, ldr_eq (by omega), Option.bind_some, ldr_eq (by omega), Option.bind_some, str_eq (by omega), Option.bind_some,
    scalarWord_eq mul mul' h, Option.bind_some, ldr_eq (by omega), Option.bind_some, str_eq (by omega)]

variable {ff : Gf2e} [IsField ff] {m n fid : Nat}

theorem mulScalar_eq (dbg : Bool) {B C : Mzed} (hB : Dm ff m n fid B) (hC : Dm ff m n fid C) (hs : Sm ff n) (hn : 0 < n) (hmn : m * n < 2 ^ 31) (a : Elem ff) :
    mulScalar dbg C a.1 B = mzedMulScalar? C a.1 B := by
  unfold mulScalar mzedMulScalar?
  rw [hB.nrows_eq, hB.ncols_eq, hB.ff_eq]
  have hdir : (if ff.degree > 8 then some true else (int? (m * n)).map fun s => decide (s < 2 ^ 17)) = some (decide (ff.degree > 8 ∨ m * n < 2 ^ 17)) := by
    rw [int_eq hmn]
    by_cases h : ff.degree > 8
    · rw [if_pos h]; simp [h]
    · rw [if_neg h]; simp [h]
  rw [hdir, Option.bind_some]
  by_cases h : ff.degree > 8 ∨ m * n < 2 ^ 17
  · rw [if_pos (by simpa using h), if_pos h]
    have : ∃ C', mzedCopy? C B = some C' ∧ Dm ff m n fid C' := by
      obtain ⟨X, rfl, rfl, rfl, rfl⟩ := hC
      obtain ⟨Y, rfl, h1, h2, h3⟩ := hB
      exact ⟨_, copyM_pack X Y h1.symm h2.symm h3.symm, _, rfl, rfl, rfl, rfl⟩
    obtain ⟨C', e, d⟩ := this
    rw [e, Option.bind_some, rescaleAll_eq dbg d hs hn a]
    rfl
  · rw [if_neg (by simpa using h), if_neg h]
    unfold t16
    have hdd := deg_le (ff := ff)
    obtain ⟨w, hw, hw64⟩ : ∃ w, degreeToW? ff.degree = some w ∧ OkW w := by
      have := okW_ff (ff := ff)
      cases h : degreeToW? ff.degree with
      | none => unfold degreeToW at this; rw [h] at this; rcases this with h | h | h | h <;> cases h
      | some w => unfold degreeToW at this; rw [h] at this; exact ⟨w, rfl, this⟩
    have hent : ∀ i, t16Entry ff w a.1 (BitVec.ofNat 64 i) (16 / w) = t16? ff a.1 i := by
      intro i
      rw [t16Entry_eq ff (by omega) (by have := hw64.le; omega) _ _ _ (by rw [hw64.n16]; omega)]
      unfold t16?
      rw [hw]; rfl
    rw [hw, Option.bind_some]
    simp only [hent]
    rw [fill_eq]
    by_cases hall : (List.range (2 ^ 16)).all (fun i => (t16? ff a.1 i).isSome) = true
    · rw [if_pos hall, if_pos hall, Option.bind_some]
      have hW : B.width = (degreeToW ff.degree * n + 63) / 64 := by unfold Mzed.width Mzed.bitCols; rw [hB.w_eq, hB.ncols_eq]
      have hWC : C.width = B.width := by rw [hW]; unfold Mzed.width Mzed.bitCols; rw [hC.w_eq, hC.ncols_eq]
      have hpos := (word_bound (okW_ff (ff := ff)) hn).1
      refine (forC_eq (fun _ C' => Shp C' C) _ (fun i C =>
        let row := M4rie.scalarRow (fun i => (t16? ff a.1 i).getD 0#64) C.width B.highBitmask (B.words i) (C.words i)
        { C with words := setRow C.words i row }) _ _ ⟨rfl, rfl, rfl, rfl⟩ ?_).1
      intro i C' hi hC'
      refine ⟨?_, hC'⟩
      rw [hC.nrows_eq] at hi
      have hw' : C'.width = C.width := by unfold Mzed.width Mzed.bitCols; rw [hC'.2.2.1, hC'.2.1]
      rw [rowOf_eq (by rw [hC'.1, hC.nrows_eq]; exact hi), Option.bind_some, rowOf_eq (by rw [hB.nrows_eq]; exact hi), Option.bind_some,
        scalarRow_eq _ (fun i => (t16? ff a.1 i).getD 0#64) (fun i hi => if_pos hi) (by omega) (by omega), Option.bind_some]
    · rw [if_neg hall, if_neg hall]; rfl

end M4rie.Chk
