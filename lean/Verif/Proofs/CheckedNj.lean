import Verif.Proofs.CheckedAlg
import Verif.Proofs.NjEchelon

/-! The checked Newton-John algorithms are defined and do what the total ones do. -/

namespace M4rie.Chk
open M4rie M4rie.Spec

variable {ff : Gf2e} [IsField ff] {m n m' fid : Nat} {A B : Mzed} {cb : Codebook}

/-! ### tables -/

theorem foldl_some {α β : Type} (f? : α → β → Option α) (f : α → β → α) : ∀ (l : List β) (a : α), (∀ a, ∀ b ∈ l, f? a b = some (f a b)) →
    l.foldl (fun a b => a.bind fun a => f? a b) (some a) = some (l.foldl f a) := by
  intro l
  induction l with
  | nil => intros; rfl
  | cons b l ih =>
    intro a h
    rw [List.foldl_cons, List.foldl_cons, Option.bind_some, h a b (by simp)]
    exact ih _ (fun a b hb => h a b (by simp [hb]))

theorem njRow_eq (hb W : Nat) (hi : Word) (mm t1 ti : Nat → Word) (h : hb < W) :
    njRow hb W hi mm t1 ti = some (M4rie.njRow hb W hi mm t1 ti) := by
  have h8 : 8 * ((W - hb - 1) / 8) ≤ W - hb - 1 := Nat.mul_div_le _ _
  unfold njRow M4rie.njRow
  simp only []
  rw [need_eq h, Option.bind_some]
  rw [foldl_some (fun row k => (need (k ≤ hb)).bind fun _ => str W row (hb - k) 0#64) (fun row k => setWord row (hb - k) 0#64) _ ti (by
    intro a k hk
    have := staleOffsets_pos hb k hk
    have hk' : k ≤ hb := by
      rcases this with h | h
      · exact h.2
      · subst h; simp [staleOffsets] at hk
    rw [need_eq hk', Option.bind_some, str_eq (by omega)]), Option.bind_some]
  generalize hn8 : 8 * ((W - hb - 1) / 8) = n8 at h8 ⊢
  have put : ∀ j row, hb + j < W → ((ldr W mm (hb + j)).bind fun u => (ldr W t1 (hb + j)).bind fun v => str W row (hb + j) (u ^^^ v)) =
      some (setWord row (hb + j) (mm (hb + j) ^^^ t1 (hb + j))) := by
    intro j row hj
    rw [ldr_eq hj, Option.bind_some, ldr_eq hj, Option.bind_some, str_eq hj]
  have l1 := fun row => (forC_eq (fun _ _ => True) (fun j row => (ldr W mm (hb + j)).bind fun u => (ldr W t1 (hb + j)).bind fun v => str W row (hb + j) (u ^^^ v))
    (fun j row => setWord row (hb + j) (mm (hb + j) ^^^ t1 (hb + j))) n8 row trivial (fun j row hj _ => ⟨put j row (by omega), trivial⟩)).1
  have l2 := fun row => (forC_eq (fun _ _ => True) (fun j row => (ldr W mm (hb + (n8 + j))).bind fun u => (ldr W t1 (hb + (n8 + j))).bind fun v => str W row (hb + (n8 + j)) (u ^^^ v))
    (fun j row => setWord row (hb + n8 + j) (mm (hb + n8 + j) ^^^ t1 (hb + n8 + j))) (W - hb - n8 - 1) row trivial
    (fun j row hj _ => ⟨by rw [put (n8 + j) row (by omega), Nat.add_assoc], trivial⟩)).1
  rw [l1, Option.bind_some, l2, Option.bind_some, ldr_eq (by omega), Option.bind_some, ldr_eq (by omega), Option.bind_some, str_eq (by omega)]

/-- a table structure for matrices with `n` columns -/
def Tb (ff : Gf2e) [IsField ff] (n fid : Nat) (T : Njt) : Prop := ∃ XM XT : Mat ff, NjtOk ff n T XM XT ∧ XM.fid = fid ∧ XT.fid = fid

/-- all lookups are rows of the table -/
def Lt (ff : Gf2e) (T : Njt) : Prop := ∀ x : Elem ff, T.L x.1.toNat < 2 ^ ff.degree

theorem tb_init (fid n : Nat) : Tb ff n fid (njtInit ff fid n) :=
  ⟨_, _, ⟨init_pack _ _ _, init_pack _ _ _, rfl, rfl, rfl, rfl, fun _ _ _ => rfl, fun _ _ _ => rfl, fun _ => rfl, rfl⟩, rfl, rfl⟩

theorem Tb.dM {T : Njt} (h : Tb ff n fid T) : Dm ff ff.degree n fid T.M := by
  obtain ⟨XM, XT, h, h1, h2⟩ := h
  exact ⟨XM, h.Meq, h.Mrows, h.Mcols, h1⟩

theorem Tb.dT {T : Njt} (h : Tb ff n fid T) : Dm ff (2 ^ ff.degree) n fid T.T := by
  obtain ⟨XM, XT, h, h1, h2⟩ := h
  exact ⟨XT, h.Teq, h.Trows, h.Tcols, h2⟩

theorem Dm.width_eq (h : Dm ff m n fid A) : A.width = (degreeToW ff.degree * n + 63) / 64 := by
  unfold Mzed.width Mzed.bitCols; rw [h.w_eq, h.ncols_eq]

theorem makeTable_eq (dbg : Bool) (hcb : cb.Ok ff.degree) {T : Njt} (hT : Tb ff n fid T) (hA : Dm ff m n fid A) (hs : Sm ff n) {r c : Nat} (hr : r < m) (hc : c < n) :
    makeTable dbg cb T A r c = some (mzedMakeTable cb T A r c) ∧ Tb ff n fid (mzedMakeTable cb T A r c) ∧ Lt ff (mzedMakeTable cb T A r c) := by
  have hd := deg_le (ff := ff)
  refine ⟨?_, ?_⟩
  · have hw := elem_bounds (okW_ff (ff := ff)) hc
    unfold makeTable mzedMakeTable
    simp only []
    rw [hA.ff_eq, hA.w_eq, assert_eq (by omega), Option.bind_some, int_eq (by unfold Sm at hs; omega), Option.bind_some]
    obtain ⟨f1, f2⟩ := forC_eq (fun _ M => Dm ff ff.degree n fid M) (fun i M => (shl 1#64 i).bind fun x => addMultipleOfRow dbg M i A r x c)
      (fun i M => mzedAddMultipleOfRow M i A r (twoPow i) c) ff.degree { T.M with words := mzdClear T.M.nrows T.M.bitCols T.M.words } hT.dM.clear (by
        intro i M hi hM
        rw [shl_eq (by omega), Option.bind_some]
        exact hM.addMul dbg hA hs hi hr hc (elemPow ff i hi))
    rw [f1, Option.bind_some]
    generalize forN (fun i M => mzedAddMultipleOfRow M i A r (twoPow i) c) ff.degree { T.M with words := mzdClear T.M.nrows T.M.bitCols T.M.words } = M at f2 ⊢
    rw [hT.dT.nrows_eq]
    have hMw := f2.width_eq
    have := (forC_eq (fun _ (s : (Nat → Nat) × Mzed) => s.2.nrows = 2 ^ ff.degree ∧ s.2.width = M.width) (njStep cb M (degreeToW ff.degree * c / 64))
      (M4rie.njStep cb M (degreeToW ff.degree * c / 64)) (2 ^ ff.degree - 1) (T.L, T.T) ⟨hT.dT.nrows_eq, by rw [hMw]; exact hT.dT.width_eq⟩ (by
        rintro k ⟨L, T'⟩ hk ⟨e1, e2⟩
        simp only [] at e1 e2
        refine ⟨?_, e1, e2⟩
        unfold njStep M4rie.njStep
        simp only []
        rw [f2.ff_eq, need_eq (by omega), Option.bind_some, need_eq (hcb.lt _ (by omega)), Option.bind_some,
          rowOf_eq (by rw [f2.nrows_eq]; exact (hcb.inc _ (by omega)).1), Option.bind_some, rowOf_eq (by rw [e1]; omega), Option.bind_some,
          rowOf_eq (by rw [e1]; omega), Option.bind_some, need_eq e2, Option.bind_some, njRow_eq _ _ _ _ _ _ (by rw [hMw]; exact hw.2.1), Option.bind_some])).1
    rw [this, Option.bind_some]
  · obtain ⟨X, rfl, rfl, rfl, rfl⟩ := hA
    obtain ⟨XM, XT, h, h1, h2⟩ := hT
    obtain ⟨XM', XT', g1, g2, g3, g4⟩ := mzedMakeTable_spec hcb X r c h hc
    exact ⟨⟨XM', XT', g1, g3.trans h1, g4.trans h2⟩, g2.lt⟩

theorem makeTables_eq (dbg : Bool) (hcb : cb.Ok ff.degree) {Ts : Nat → Njt} (hT : ∀ q, Tb ff n fid (Ts q)) (hA : Dm ff m n fid A) (hs : Sm ff n) {r c dc k : Nat}
    (hr : r + k ≤ m) (hc : ∀ q, q < k → c + dc * q < n) :
    makeTables dbg cb A r c dc k Ts = some (M4rie.makeTables cb A r c dc k Ts) ∧ (∀ q, Tb ff n fid (M4rie.makeTables cb A r c dc k Ts q)) ∧
      ∀ q, q < k → Lt ff (M4rie.makeTables cb A r c dc k Ts q) := by
  unfold makeTables M4rie.makeTables
  refine forC_eq (fun k (Ts : Nat → Njt) => (∀ q, Tb ff n fid (Ts q)) ∧ ∀ q, q < k → Lt ff (Ts q)) _ _ k Ts ⟨hT, by omega⟩ ?_
  rintro q Ts hq ⟨h1, h2⟩
  obtain ⟨t1, t2, t3⟩ := makeTable_eq dbg hcb (h1 q) hA hs (show r + q < m by omega) (hc q hq)
  rw [t1, Option.bind_some]
  refine ⟨rfl, fun p => ?_, fun p hp => ?_⟩
  · split_ifs with h
    · exact t2
    · exact h1 p
  · split_ifs with h
    · exact t3
    · exact h2 p (by omega)

theorem lookup_eq {T : Njt} (hT : Tb ff n fid T) (hL : Lt ff T) (x : Elem ff) : lookup T x.1 = some (T.L x.1.toNat) := by
  unfold lookup
  rw [hT.dT.ff_eq, need_eq x.2, Option.bind_some, need_eq (by rw [hT.dT.nrows_eq]; exact hL x), Option.bind_some]

theorem collect_eq (f : Nat → Option Nat) (g : Nat → Nat) : ∀ k, (∀ q, q < k → f q = some (g q)) → ∃ h, collect f k = some h ∧ ∀ q, q < k → h q = g q := by
  intro k
  induction k with
  | zero => intro _; exact ⟨_, rfl, by omega⟩
  | succ k ih =>
    intro h
    obtain ⟨v, h1, h2⟩ := ih (fun q hq => h q (by omega))
    refine ⟨fun q => if q = k then g k else v q, ?_, ?_⟩
    · unfold collect; rw [h1, Option.bind_some, h k (by omega), Option.bind_some]
    · intro q hq
      by_cases hk : q = k
      · simp [hk]
      · simp only [hk, if_false]; exact h2 q (by omega)

theorem xorTables_congr (Ts : Nat → Njt) (x y : Nat → Nat) (b : Nat) : ∀ k, (∀ q, q < k → x q = y q) → xorTables Ts x b k = xorTables Ts y b k := by
  intro k
  induction k with
  | zero => intro _; rfl
  | succ k ih => intro h; unfold xorTables; rw [ih (fun q hq => h q (by omega)), h k (by omega)]

theorem combine_eq {C : Mzed} {T : Njt} (hC : Dm ff m n fid C) (hT : Tb ff n fid T) (hL : Lt ff T) (hn : 0 < n) {j : Nat} (hj : j < m) (x : Elem ff) :
    combine C j T.T (T.L x.1.toNat) = some (mzedCombine C j T.T (T.L x.1.toNat)) ∧ Dm ff m n fid (mzedCombine C j T.T (T.L x.1.toNat)) := by
  have hw := (elem_bounds (okW_ff (ff := ff)) hn).2.1
  refine ⟨?_, ?_⟩
  · unfold combine
    rw [need_eq ⟨by rw [hC.nrows_eq]; exact hj, by rw [hT.dT.nrows_eq]; exact hL x, by rw [hC.width_eq, hT.dT.width_eq], by rw [hC.width_eq]; omega⟩, Option.bind_some]
  · obtain ⟨X, rfl, rfl, rfl, rfl⟩ := hC
    obtain ⟨XM, XT, h, h1, h2⟩ := hT
    rw [h.Teq, combine_pack]
    exact ⟨_, rfl, rfl, rfl, rfl⟩

/-- adding rows of tables to one row -/
theorem addTables_dm {C : Mzed} (hC : Dm ff m n fid C) {Ts : Nat → Njt} (hT : ∀ q, Tb ff n fid (Ts q)) (r k : Nat) (x : Nat → Nat) (P : Nat → Prop) [DecidablePred P] :
    Dm ff m n fid { C with words := setRow C.words r (fun b => if P b then C.words r b ^^^ xorTables Ts x b k else C.words r b) } := by
  obtain ⟨X, rfl, rfl, rfl, rfl⟩ := hC
  choose XM XT h1 h2 h3 using hT
  exact ⟨_, addTables_pack X r (fun q _ => (h1 q).Teq) x P, rfl, rfl, rfl⟩

theorem combine8_eq {C : Mzed} {Ts : Nat → Njt} (hC : Dm ff m n fid C) (hT : ∀ q, Tb ff n fid (Ts q)) {x y : Nat → Nat} (hxy : ∀ q, q < 8 → x q = y q)
    (hy : ∀ q, q < 8 → y q < 2 ^ ff.degree) {j : Nat} (hj : j < m) :
    combine8 C j Ts x = some (mzedCombine8 C j Ts y) ∧ Dm ff m n fid (mzedCombine8 C j Ts y) := by
  refine ⟨?_, addTables_dm hC hT j 8 y (fun b => b < C.width)⟩
  unfold combine8
  rw [need_eq ⟨by rw [hC.nrows_eq]; exact hj, by
    intro q hq
    have hq : q < 8 := List.mem_range.1 hq
    rw [hxy q hq, (hT q).dT.nrows_eq, hC.width_eq, (hT q).dT.width_eq]
    exact ⟨hy q hq, le_rfl⟩⟩, Option.bind_some]
  unfold mzedCombine8
  simp only [fun b => xorTables_congr Ts x y b 8 hxy]

theorem processRows_eq {Ts : Nat → Njt} (hA : Dm ff m n fid A) (hT : ∀ q, Tb ff n fid (Ts q)) {startrow endrow c k : Nat} (hL : ∀ q, q < k → Lt ff (Ts q)) (hs : Sm ff n)
    (hk : k * degreeToW ff.degree ≤ 64) (hc : c + k ≤ n) (he : endrow ≤ m) :
    processRows A startrow endrow c k Ts = some (mzedProcessRows A startrow endrow c k Ts) ∧ Dm ff m n fid (mzedProcessRows A startrow endrow c k Ts) := by
  have hmul : c * degreeToW ff.degree + k * degreeToW ff.degree ≤ n * degreeToW ff.degree := by
    rw [← Nat.add_mul]; exact Nat.mul_le_mul_right _ hc
  have hs' : n * degreeToW ff.degree < 2 ^ 31 := by rw [Nat.mul_comm]; exact hs
  unfold processRows mzedProcessRows
  rw [hA.w_eq, int_eq (by omega), Option.bind_some]
  refine forC_eq (fun _ A => Dm ff m n fid A) _ _ _ _ hA ?_
  intro i A hi hA
  simp only []
  refine ⟨?_, ?_⟩
  · have hw := hA.w_eq
    rw [need_eq ⟨by rw [hA.nrows_eq]; omega, by rw [hw]; exact hk, by rw [hw]; unfold Mzed.bitCols; rw [hA.w_eq, hA.ncols_eq, Nat.mul_comm _ n]; exact hmul⟩, Option.bind_some]
    obtain ⟨x, h1, h2⟩ := collect_eq (fun q => (readElem A (startrow + i) (c + q)).bind fun v => lookup (Ts q) v)
      (fun q => (Ts q).L (mzedReadElem A (startrow + i) (c + q)).toNat) k (by
        intro q hq
        obtain ⟨x, e1, e2⟩ := hA.read hs (show startrow + i < m by omega) (show c + q < n by omega)
        rw [e1, e2, Option.bind_some, lookup_eq (hT q) (hL q hq)])
    rw [h1, Option.bind_some, need_eq (by intro q hq; rw [hA.width_eq, (hT q).dT.width_eq]), Option.bind_some]
    simp only [fun b => xorTables_congr Ts x _ b k h2, hw]
  · exact addTables_dm hA hT _ k _ (fun b => c * A.w / 64 ≤ b ∧ b < A.width)

/-! ### multiplication -/

theorem mulNj0From_eq (dbg : Bool) (hcb : cb.Ok ff.degree) {C : Mzed} {T0 : Njt} {l from_ k : Nat} (hC : Dm ff m n fid C) (hA : Dm ff m l fid A) (hB : Dm ff l n fid B)
    (hT : Tb ff n fid T0) (hs : Sm ff n) (hs' : Sm ff l) (hn : 0 < n) (hf : from_ + k ≤ l) :
    mulNj0From dbg cb C A B T0 from_ k = some (M4rie.mulNj0From cb C A B T0 from_ k) ∧ Dm ff m n fid (M4rie.mulNj0From cb C A B T0 from_ k).1 := by
  unfold mulNj0From M4rie.mulNj0From
  obtain ⟨f1, f2⟩ := forC_eq (fun _ (s : Mzed × Njt) => Dm ff m n fid s.1 ∧ Tb ff n fid s.2) (fun k (s : Mzed × Njt) =>
    let i := from_ + k
    (makeTable dbg cb s.2 B i 0).bind fun T0 =>
    (forC (fun j C => (readElem A j i).bind fun v => (lookup T0 v).bind fun x => combine C j T0.T x) A.nrows s.1).bind fun C =>
    some (C, T0)) (fun k (s : Mzed × Njt) =>
    let i := from_ + k
    let T0 := mzedMakeTable cb s.2 B i 0
    (forN (fun j C => mzedCombine C j T0.T (T0.L (mzedReadElem A j i).toNat)) A.nrows s.1, T0)) k (C, T0) ⟨hC, hT⟩ (by
    rintro i ⟨C, T⟩ hi ⟨hC, hT⟩
    simp only [] at hC hT ⊢
    obtain ⟨t1, t2, t3⟩ := makeTable_eq dbg hcb hT hB hs (show from_ + i < l by omega) hn
    rw [t1, Option.bind_some]
    obtain ⟨g1, g2⟩ := forC_eq (fun _ C => Dm ff m n fid C)
      (fun j C => (readElem A j (from_ + i)).bind fun v => (lookup (mzedMakeTable cb T B (from_ + i) 0) v).bind fun x =>
        combine C j (mzedMakeTable cb T B (from_ + i) 0).T x)
      (fun j C => mzedCombine C j (mzedMakeTable cb T B (from_ + i) 0).T ((mzedMakeTable cb T B (from_ + i) 0).L (mzedReadElem A j (from_ + i)).toNat)) m C hC (by
        intro j C hj hC
        obtain ⟨x, e1, e2⟩ := hA.read hs' hj (show from_ + i < l by omega)
        rw [e1, e2, Option.bind_some, lookup_eq t2 t3, Option.bind_some]
        exact combine_eq hC t2 t3 hn hj x)
    rw [hA.nrows_eq, g1, Option.bind_some]
    exact ⟨rfl, g2, t2⟩)
  exact ⟨f1, f2.1⟩

theorem njGiant_eq (dbg : Bool) (hcb : cb.Ok ff.degree) {C : Mzed} {Ts : Nat → Njt} {l g count k : Nat} (hC : Dm ff m n fid C) (hA : Dm ff m l fid A) (hB : Dm ff l n fid B)
    (hT : ∀ q, Tb ff n fid (Ts q)) (hs : Sm ff n) (hs' : Sm ff l) (hn : 0 < n) (hg : g + count ≤ m) (hk : 8 * k ≤ l) :
    njGiant dbg cb A B g count k (C, Ts) = some (M4rie.njGiant cb A B g count k (C, Ts)) ∧
      Dm ff m n fid (M4rie.njGiant cb A B g count k (C, Ts)).1 ∧ ∀ q, Tb ff n fid ((M4rie.njGiant cb A B g count k (C, Ts)).2 q) := by
  unfold njGiant M4rie.njGiant
  refine forC_eq (fun _ (s : Mzed × (Nat → Njt)) => Dm ff m n fid s.1 ∧ ∀ q, Tb ff n fid (s.2 q)) _ _ k (C, Ts) ⟨hC, hT⟩ ?_
  rintro i ⟨C, Ts⟩ hi ⟨hC, hT⟩
  simp only [] at hC hT ⊢
  obtain ⟨t1, t2, t3⟩ := makeTables_eq (r := 8 * i) (c := 0) (dc := 0) (k := 8) dbg hcb hT hB hs (by omega) (by omega)
  rw [t1, Option.bind_some]
  generalize M4rie.makeTables cb B (8 * i) 0 0 8 Ts = Ts' at t2 t3 ⊢
  obtain ⟨g1, g2⟩ := forC_eq (fun _ C => Dm ff m n fid C)
    (fun bs C => (collect (fun q => (readElem A (g + bs) (8 * i + q)).bind fun v => lookup (Ts' q) v) 8).bind fun x => combine8 C (g + bs) Ts' x)
    (fun bs C => mzedCombine8 C (g + bs) Ts' (fun q => (Ts' q).L (mzedReadElem A (g + bs) (8 * i + q)).toNat)) count C hC (by
      intro bs C hb hC
      obtain ⟨x, h1, h2⟩ := collect_eq (fun q => (readElem A (g + bs) (8 * i + q)).bind fun v => lookup (Ts' q) v)
        (fun q => (Ts' q).L (mzedReadElem A (g + bs) (8 * i + q)).toNat) 8 (by
          intro q hq
          obtain ⟨x, e1, e2⟩ := hA.read hs' (show g + bs < m by omega) (show 8 * i + q < l by omega)
          rw [e1, e2, Option.bind_some, lookup_eq (t2 q) (t3 q hq)])
      rw [h1, Option.bind_some]
      refine combine8_eq hC t2 h2 ?_ (by omega)
      intro q hq
      obtain ⟨x, e1, e2⟩ := hA.read hs' (show g + bs < m by omega) (show 8 * i + q < l by omega)
      rw [e1]; exact t3 q hq x)
  rw [g1, Option.bind_some]
  exact ⟨rfl, g2, t2⟩

theorem mulNewtonJohn_eq (dbg : Bool) (hcb : cb.Ok ff.degree) (bs : Nat) {C : Mzed} {l : Nat} (hC : Dm ff m n fid C) (hA : Dm ff m l fid A) (hB : Dm ff l n fid B)
    (hs : Sm ff n) (hs' : Sm ff l) (hn : 0 < n) :
    mulNewtonJohn dbg cb bs C A B = some (mzedMulNewtonJohnAcc cb bs C A B) := by
  unfold mulNewtonJohn mzedMulNewtonJohnAcc
  by_cases h0 : A.ff.degree > A.nrows
  · rw [if_pos h0, if_pos h0]; exact (mulNaive_eq hC hA hB hs hs').1
  rw [if_neg h0, if_neg h0]
  simp only []
  have hfid : B.fid = fid := by obtain ⟨X, rfl, rfl, rfl, rfl⟩ := hB; rfl
  rw [hA.ncols_eq, hA.nrows_eq, hB.ff_eq, hB.ncols_eq, hfid]
  generalize njBlocksize bs A.w m = blk
  have hblk : m / blk * blk ≤ m := Nat.div_mul_le_self _ _
  have hl : 8 * (l / 8) ≤ l := Nat.mul_div_le _ _
  obtain ⟨f1, f2, f3⟩ := forC_eq (fun _ (s : Mzed × (Nat → Njt)) => Dm ff m n fid s.1 ∧ ∀ q, Tb ff n fid (s.2 q))
    (fun g s => njGiant dbg cb A B (g * blk) blk (l / 8) s) (fun g s => M4rie.njGiant cb A B (g * blk) blk (l / 8) s) (m / blk) (C, fun _ => njtInit ff fid n)
    ⟨hC, fun _ => tb_init _ _⟩ (by
      rintro g ⟨C, Ts⟩ hg ⟨hC, hT⟩
      refine njGiant_eq dbg hcb hC hA hB hT hs hs' hn ?_ hl
      have : (g + 1) * blk ≤ m / blk * blk := Nat.mul_le_mul_right _ (by omega)
      have h4 : (g + 1) * blk = g * blk + blk := by ring
      omega)
  rw [f1, Option.bind_some]
  generalize forN (fun g s => M4rie.njGiant cb A B (g * blk) blk (l / 8) s) (m / blk) (C, fun _ => njtInit ff fid n) = s at f2 f3 ⊢
  obtain ⟨C', Ts⟩ := s
  obtain ⟨g1, g2, g3⟩ := njGiant_eq dbg hcb f2 hA hB f3 hs hs' hn (show m / blk * blk + (m - m / blk * blk) ≤ m by omega) hl
  rw [g1, Option.bind_some]
  by_cases h8 : l % 8 ≠ 0
  · rw [if_pos h8, if_pos h8, (mulNj0From_eq dbg hcb g2 hA hB (g3 0) hs hs' hn (by omega)).1]; rfl
  · rw [if_neg h8, if_neg h8]

/-! ### triangular solving -/

/-- the loop of the lower solvers, for any way of reading the entries of the triangle -/
theorem njLower_loop (dbg : Bool) (hcb : cb.Ok ff.degree) {rd : Nat → Nat → Option Word} {rd' : Nat → Nat → Word}
    (hrd : ∀ i j, i < m → j < m → ∃ x : Elem ff, rd' i j = x.1 ∧ rd i j = some x.1) (hB : Dm ff m n fid B) (hs : Sm ff n) (hn : 0 < n) {T : Njt} (hT : Tb ff n fid T) :
    forC (fun i (s : Mzed × Njt) =>
      (rd i i).bind fun x => (inv ff x).bind fun y => (rescaleRow dbg s.1 i 0 y).bind fun B =>
      (makeTable dbg cb s.2 B i 0).bind fun T0 =>
      (forC (fun d B => (rd (i + 1 + d) i).bind fun v => (lookup T0 v).bind fun x => combine B (i + 1 + d) T0.T x) (m - (i + 1)) B).bind fun B =>
      some (B, T0)) m (B, T) = some (forN (fun i (s : Mzed × Njt) =>
      let B := mzedRescaleRow s.1 i 0 (gf2eInv ff (rd' i i))
      let T0 := mzedMakeTable cb s.2 B i 0
      (forN (fun d B => mzedCombine B (i + 1 + d) T0.T (T0.L (rd' (i + 1 + d) i).toNat)) (m - (i + 1)) B, T0)) m (B, T)) ∧
    Dm ff m n fid (forN (fun i (s : Mzed × Njt) =>
      let B := mzedRescaleRow s.1 i 0 (gf2eInv ff (rd' i i))
      let T0 := mzedMakeTable cb s.2 B i 0
      (forN (fun d B => mzedCombine B (i + 1 + d) T0.T (T0.L (rd' (i + 1 + d) i).toNat)) (m - (i + 1)) B, T0)) m (B, T)).1 := by
  refine (fun h => ⟨h.1, h.2.1⟩) (forC_eq (fun _ (s : Mzed × Njt) => Dm ff m n fid s.1 ∧ Tb ff n fid s.2) _ _ m (B, T) ⟨hB, hT⟩ ?_)
  rintro i ⟨B, T⟩ hi ⟨hB, hT⟩
  simp only [] at hB hT ⊢
  obtain ⟨x, e1, e2⟩ := hrd i i hi hi
  obtain ⟨y, e3, e4⟩ := inv_eq x
  obtain ⟨r1, r2⟩ := hB.rescale dbg hs hi hn y
  rw [e1, e2, Option.bind_some, e3, e4, Option.bind_some, r1, Option.bind_some]
  obtain ⟨t1, t2, t3⟩ := makeTable_eq dbg hcb hT r2 hs hi hn
  rw [t1, Option.bind_some]
  generalize mzedMakeTable cb T (mzedRescaleRow B i 0 y.1) i 0 = T' at t2 t3 ⊢
  obtain ⟨g1, g2⟩ := forC_eq (fun _ B => Dm ff m n fid B)
    (fun d B => (rd (i + 1 + d) i).bind fun v => (lookup T' v).bind fun x => combine B (i + 1 + d) T'.T x)
    (fun d B => mzedCombine B (i + 1 + d) T'.T (T'.L (rd' (i + 1 + d) i).toNat)) (m - (i + 1)) (mzedRescaleRow B i 0 y.1) r2 (by
      intro d B hd hB
      obtain ⟨x, e1, e2⟩ := hrd (i + 1 + d) i (by omega) hi
      rw [e1, e2, Option.bind_some, lookup_eq t2 t3, Option.bind_some]
      exact combine_eq hB t2 t3 hn (by omega) x)
  rw [g1, Option.bind_some]
  exact ⟨rfl, g2, t2⟩

/-- the loop of the upper solvers -/
theorem njUpper_loop (dbg : Bool) (hcb : cb.Ok ff.degree) {rd : Nat → Nat → Option Word} {rd' : Nat → Nat → Word}
    (hrd : ∀ i j, i < m → j < m → ∃ x : Elem ff, rd' i j = x.1 ∧ rd i j = some x.1) (hB : Dm ff m n fid B) (hs : Sm ff n) (hn : 0 < n) {T : Njt} (hT : Tb ff n fid T) :
    forC (fun t (s : Mzed × Njt) =>
      (rd (m - 1 - t) (m - 1 - t)).bind fun x => (inv ff x).bind fun y => (rescaleRow dbg s.1 (m - 1 - t) 0 y).bind fun B =>
      (makeTable dbg cb s.2 B (m - 1 - t) 0).bind fun T0 =>
      (forC (fun j B => (rd j (m - 1 - t)).bind fun v => (lookup T0 v).bind fun x => combine B j T0.T x) (m - 1 - t) B).bind fun B =>
      some (B, T0)) m (B, T) = some (forN (fun t (s : Mzed × Njt) =>
      let i := m - 1 - t
      let B := mzedRescaleRow s.1 i 0 (gf2eInv ff (rd' i i))
      let T0 := mzedMakeTable cb s.2 B i 0
      (forN (fun j B => mzedCombine B j T0.T (T0.L (rd' j i).toNat)) i B, T0)) m (B, T)) ∧
    Dm ff m n fid (forN (fun t (s : Mzed × Njt) =>
      let i := m - 1 - t
      let B := mzedRescaleRow s.1 i 0 (gf2eInv ff (rd' i i))
      let T0 := mzedMakeTable cb s.2 B i 0
      (forN (fun j B => mzedCombine B j T0.T (T0.L (rd' j i).toNat)) i B, T0)) m (B, T)).1 := by
  refine (fun h => ⟨h.1, h.2.1⟩) (forC_eq (fun _ (s : Mzed × Njt) => Dm ff m n fid s.1 ∧ Tb ff n fid s.2) _ _ m (B, T) ⟨hB, hT⟩ ?_)
  rintro t ⟨B, T⟩ ht ⟨hB, hT⟩
  simp only [] at hB hT ⊢
  have hi : m - 1 - t < m := by omega
  obtain ⟨x, e1, e2⟩ := hrd (m - 1 - t) (m - 1 - t) hi hi
  obtain ⟨y, e3, e4⟩ := inv_eq x
  obtain ⟨r1, r2⟩ := hB.rescale dbg hs hi hn y
  rw [e1, e2, Option.bind_some, e3, e4, Option.bind_some, r1, Option.bind_some]
  obtain ⟨t1, t2, t3⟩ := makeTable_eq dbg hcb hT r2 hs hi hn
  rw [t1, Option.bind_some]
  generalize mzedMakeTable cb T (mzedRescaleRow B (m - 1 - t) 0 y.1) (m - 1 - t) 0 = T' at t2 t3 ⊢
  obtain ⟨g1, g2⟩ := forC_eq (fun _ B => Dm ff m n fid B)
    (fun j B => (rd j (m - 1 - t)).bind fun v => (lookup T' v).bind fun x => combine B j T'.T x)
    (fun j B => mzedCombine B j T'.T (T'.L (rd' j (m - 1 - t)).toNat)) (m - 1 - t) (mzedRescaleRow B (m - 1 - t) 0 y.1) r2 (by
      intro j B hj hB
      obtain ⟨x, e1, e2⟩ := hrd j (m - 1 - t) (by omega) hi
      rw [e1, e2, Option.bind_some, lookup_eq t2 t3, Option.bind_some]
      exact combine_eq hB t2 t3 hn (by omega) x)
  rw [g1, Option.bind_some]
  exact ⟨rfl, g2, t2⟩

theorem trsmLowerNj_eq (dbg : Bool) (hcb : cb.Ok ff.degree) {L : Mzed} (hL : Dm ff m m fid L) (hB : Dm ff m n fid B) (hs : Sm ff n) (hs' : Sm ff m) (hn : 0 < n) :
    trsmLowerNj dbg cb L B = some (mzedTrsmLowerLeftNewtonJohn cb L B) ∧ Dm ff m n fid (mzedTrsmLowerLeftNewtonJohn cb L B) := by
  unfold trsmLowerNj mzedTrsmLowerLeftNewtonJohn
  rw [trsmAssert_eq dbg hL hB, Option.bind_some]
  by_cases h0 : 2 ^ L.ff.degree ≥ L.nrows
  · rw [if_pos h0, if_pos h0]; exact trsmLowerNaive_eq dbg hL hB hs hs' hn
  rw [if_neg h0, if_neg h0]
  have hfid : B.fid = fid := by obtain ⟨X, rfl, rfl, rfl, rfl⟩ := hB; rfl
  rw [hB.nrows_eq, hB.ff_eq, hB.ncols_eq, hfid, hL.ff_eq]
  obtain ⟨h1, h2⟩ := njLower_loop dbg hcb (rd := readElem L) (rd' := mzedReadElem L) (fun i j hi hj => hL.read hs' hi hj) hB hs hn (tb_init fid n)
  refine ⟨?_, h2⟩
  refine (congrArg (Option.map _) h1).trans rfl

theorem trsmUpperNj_eq (dbg : Bool) (hcb : cb.Ok ff.degree) {U : Mzed} (hU : Dm ff m m fid U) (hB : Dm ff m n fid B) (hs : Sm ff n) (hs' : Sm ff m) (hn : 0 < n) :
    trsmUpperNj dbg cb U B = some (mzedTrsmUpperLeftNewtonJohn cb U B) ∧ Dm ff m n fid (mzedTrsmUpperLeftNewtonJohn cb U B) := by
  unfold trsmUpperNj mzedTrsmUpperLeftNewtonJohn
  rw [trsmAssert_eq dbg hU hB, Option.bind_some]
  by_cases h0 : 2 ^ U.ff.degree ≥ U.nrows
  · rw [if_pos h0, if_pos h0]; exact trsmUpperNaive_eq dbg hU hB hs hs' hn
  rw [if_neg h0, if_neg h0]
  have hfid : B.fid = fid := by obtain ⟨X, rfl, rfl, rfl, rfl⟩ := hB; rfl
  rw [hB.nrows_eq, hB.ff_eq, hB.ncols_eq, hfid, hU.ff_eq]
  obtain ⟨h1, h2⟩ := njUpper_loop dbg hcb (rd := readElem U) (rd' := mzedReadElem U) (fun i j hi hj => hU.read hs' hi hj) hB hs hn (tb_init fid n)
  refine ⟨?_, h2⟩
  refine (congrArg (Option.map _) h1).trans rfl

/-! ### elimination -/

theorem gaussClear_eq (dbg : Bool) (hA : Dm ff m n fid A) (hs : Sm ff n) {i r c k : Nat} (hi : i < m) (hr : r + k ≤ m) (hc : c + k ≤ n) :
    gaussClear dbg A i r c k = some (M4rie.gaussClear A i r c k) ∧ Dm ff m n fid (M4rie.gaussClear A i r c k) := by
  unfold gaussClear M4rie.gaussClear
  refine forC_eq (fun _ A => Dm ff m n fid A) _ _ k A hA ?_
  intro l A hl hA
  obtain ⟨x, e1, e2⟩ := hA.read hs hi (show c + l < n by omega)
  simp only []
  rw [e1, e2, Option.bind_some]
  by_cases h0 : x.1 = 0#64
  · rw [if_pos h0, if_pos h0]; exact ⟨rfl, hA⟩
  · rw [if_neg h0, if_neg h0]; exact hA.addMul dbg hA hs hi (by omega) (by omega) x

theorem gaussAbove_eq (dbg : Bool) (hA : Dm ff m n fid A) (hs : Sm ff n) {r k s j : Nat} (hr : r + k ≤ m) (hs' : s < m) (hj : j < n) :
    gaussAbove dbg A r k s j = some (M4rie.gaussAbove A r k s j) ∧ Dm ff m n fid (M4rie.gaussAbove A r k s j) := by
  unfold gaussAbove M4rie.gaussAbove
  refine forC_eq (fun _ A => Dm ff m n fid A) _ _ k A hA ?_
  intro l A hl hA
  obtain ⟨x, e1, e2⟩ := hA.read hs (show r + l < m by omega) hj
  simp only []
  rw [e1, e2, Option.bind_some]
  by_cases h0 : x.1 = 0#64
  · rw [if_pos h0, if_pos h0]; exact ⟨rfl, hA⟩
  · rw [if_neg h0, if_neg h0]; exact hA.addMul dbg hA hs (by omega) hs' hj x

theorem gaussRow_eq (dbg : Bool) (hs : Sm ff n) {r c t : Nat} (hc : c + t < n) : ∀ (k i : Nat) (A : Mzed), Dm ff m n fid A → r + t ≤ i → i + k ≤ m →
    gaussRow dbg r c t k i A = some (M4rie.gaussRow r c t k i A) ∧ Dm ff m n fid (M4rie.gaussRow r c t k i A).1 ∧
      ((M4rie.gaussRow r c t k i A).2 = true → r + t < m) := by
  intro k
  induction k with
  | zero => intro i A hA _ _; exact ⟨rfl, hA, by simp [M4rie.gaussRow]⟩
  | succ k ih =>
    intro i A hA hi hk
    obtain ⟨c1, c2⟩ := gaussClear_eq (i := i) (r := r) (c := c) (k := t) dbg hA hs (by omega) (by omega) (by omega)
    obtain ⟨x, e1, e2⟩ := c2.read hs (show i < m by omega) hc
    unfold gaussRow M4rie.gaussRow
    simp only []
    rw [c1, Option.bind_some, e1, e2, Option.bind_some]
    by_cases h0 : x.1 = 0#64
    · rw [if_pos h0, if_pos h0]; exact ih (i + 1) _ c2 (by omega) (by omega)
    · rw [if_neg h0, if_neg h0]
      obtain ⟨y, e3, e4⟩ := inv_eq x
      obtain ⟨r1, r2⟩ := c2.rescale dbg hs (show i < m by omega) hc y
      obtain ⟨s1, s2⟩ := r2.swap (show i < m by omega) (show r + t < m by omega)
      obtain ⟨t1, t2⟩ := gaussAbove_eq (r := r) (k := t) (s := r + t) (j := c + t) dbg s2 hs (by omega) (by omega) hc
      rw [c2.ff_eq, e3, e4, Option.bind_some, r1, Option.bind_some, s1, Option.bind_some, t1, Option.bind_some]
      exact ⟨rfl, t2, fun _ => by omega⟩

theorem gaussCols_eq (dbg : Bool) (hs : Sm ff n) {r c : Nat} : ∀ (k t : Nat) (A : Mzed), Dm ff m n fid A → c + t + k ≤ n → r + t ≤ m →
    gaussCols dbg r c m k t A = some (M4rie.gaussCols r c m k t A) ∧ Dm ff m n fid (M4rie.gaussCols r c m k t A).1 ∧
      r + (M4rie.gaussCols r c m k t A).2 ≤ m ∧ (M4rie.gaussCols r c m k t A).2 ≤ t + k := by
  intro k
  induction k with
  | zero => intro t A hA _ hr; exact ⟨rfl, hA, hr, le_rfl⟩
  | succ k ih =>
    intro t A hA hc hr
    obtain ⟨g1, g2, g3⟩ := gaussRow_eq (r := r) (c := c) (t := t) dbg hs (by omega) (m - (r + t)) (r + t) A hA le_rfl (by omega)
    unfold gaussCols M4rie.gaussCols
    simp only []
    rw [g1, Option.bind_some]
    by_cases hb : (M4rie.gaussRow r c t (m - (r + t)) (r + t) A).2 = true
    · rw [if_pos hb, if_pos hb]
      obtain ⟨i1, i2, i3, i4⟩ := ih (t + 1) _ g2 (by omega) (by have := g3 hb; omega)
      exact ⟨i1, i2, i3, by omega⟩
    · rw [if_neg hb, if_neg hb]; exact ⟨rfl, g2, hr, by simp only; omega⟩

theorem njEchLoop_eq (dbg : Bool) (hcb : cb.Ok ff.degree) (hs : Sm ff n) (full : Bool) : ∀ (fuel : Nat) (A : Mzed) (Ts : Nat → Njt) (r c kk : Nat),
    Dm ff m n fid A → (∀ q, Tb ff n fid (Ts q)) → r ≤ m → kk * degreeToW ff.degree ≤ 64 →
    njEchLoop dbg cb full fuel A Ts r c kk = some (M4rie.njEchLoop cb full fuel A Ts r c kk) := by
  intro fuel
  induction fuel with
  | zero => intros; rfl
  | succ fuel ih =>
    intro A Ts r c kk hA hT hr hkk
    unfold njEchLoop M4rie.njEchLoop
    rw [hA.ncols_eq]
    by_cases hcn : c < n
    · rw [if_pos hcn, if_pos hcn]
      simp only []
      have hk1 : c + (if c + kk > n then n - c else kk) ≤ n := by split_ifs <;> omega
      have hk2 : (if c + kk > n then n - c else kk) * degreeToW ff.degree ≤ 64 := by
        refine le_trans (Nat.mul_le_mul_right _ ?_) hkk
        split_ifs <;> omega
      generalize (if c + kk > n then n - c else kk) = k1 at hk1 hk2 ⊢
      unfold mzedGaussSubmatrixFull
      rw [hA.nrows_eq]
      obtain ⟨g1, g2, g3, g4⟩ := gaussCols_eq (r := r) (c := c) dbg hs k1 0 A hA (by omega) (by omega)
      rw [g1, Option.bind_some]
      generalize M4rie.gaussCols r c m k1 0 A = g at g2 g3 g4 ⊢
      obtain ⟨A', kbar⟩ := g
      simp only [] at g2 g3 g4 ⊢
      by_cases hb : 1 ≤ kbar ∧ kbar ≤ 6
      · rw [if_pos hb, if_pos hb]
        obtain ⟨t1, t2, t3⟩ := makeTables_eq (r := r) (c := c) (dc := 1) (k := kbar) dbg hcb hT g2 hs g3 (by omega)
        rw [t1, Option.bind_some]
        generalize M4rie.makeTables cb A' r c 1 kbar Ts = Ts' at t2 t3 ⊢
        have hkb : kbar * degreeToW ff.degree ≤ 64 := le_trans (Nat.mul_le_mul_right _ (by omega)) hk2
        have p1 : (if kbar = k1 then processRows A' (r + kbar) A'.nrows c kbar Ts' else some A') =
            some (if kbar = k1 then mzedProcessRows A' (r + kbar) A'.nrows c kbar Ts' else A') ∧
            Dm ff m n fid (if kbar = k1 then mzedProcessRows A' (r + kbar) A'.nrows c kbar Ts' else A') := by
          by_cases he : kbar = k1
          · rw [if_pos he, if_pos he, g2.nrows_eq]
            exact processRows_eq g2 t2 t3 hs hkb (by omega) le_rfl
          · rw [if_neg he, if_neg he]; exact ⟨rfl, g2⟩
        rw [p1.1, Option.bind_some]
        have p1' := p1.2
        generalize (if kbar = k1 then mzedProcessRows A' (r + kbar) A'.nrows c kbar Ts' else A') = A2 at p1' ⊢
        have p2 : (if full = true then processRows A2 0 r c kbar Ts' else some A2) =
            some (if full = true then mzedProcessRows A2 0 r c kbar Ts' else A2) ∧
            Dm ff m n fid (if full = true then mzedProcessRows A2 0 r c kbar Ts' else A2) := by
          by_cases he : full = true
          · rw [if_pos he, if_pos he]
            exact processRows_eq p1' t2 t3 hs hkb (by omega) hr
          · rw [if_neg he, if_neg he]; exact ⟨rfl, p1'⟩
        rw [p2.1, Option.bind_some]
        exact ih _ _ _ _ _ p2.2 t2 g3 hk2
      · rw [if_neg hb, if_neg hb]
        exact ih _ _ _ _ _ g2 hT g3 hk2
    · rw [if_neg hcn, if_neg hcn]

theorem echelonizeNj_eq (dbg : Bool) (hcb : cb.Ok ff.degree) (optK : Nat) (small full : Bool) (hA : Dm ff m n fid A) (hs : Sm ff n) :
    echelonizeNewtonJohn dbg cb optK small A full = some (mzedEchelonizeNewtonJohn cb optK small A full) := by
  have hfid : A.fid = fid := by obtain ⟨X, rfl, rfl, rfl, rfl⟩ := hA; rfl
  unfold echelonizeNewtonJohn mzedEchelonizeNewtonJohn
  rw [hA.ff_eq, hA.ncols_eq, hfid]
  exact njEchLoop_eq dbg hcb hs full n A _ 0 0 _ hA (fun _ => tb_init _ _) (by omega) (njKK_bounds ff.degree optK small (IsField.two_le (ff := ff)) deg_le).2.2

/-! ### PLE -/

theorem pleNj_eq (dbg : Bool) (hcb : cb.Ok ff.degree) (h : Dm ff m n fid A) (hs : Sm ff n) (P Q : Nat → Nat) :
    pleNewtonJohn dbg cb A P Q = some (mzedPleNewtonJohn cb A P Q) := by
  have hfid : A.fid = fid := by obtain ⟨X, rfl, rfl, rfl, rfl⟩ := h; rfl
  unfold pleNewtonJohn mzedPleNewtonJohn
  rw [h.ff_eq, h.ncols_eq, hfid]
  have hw16 := (okW_ff (ff := ff)).le
  obtain ⟨h1, h2⟩ := pleLoop_eq (m := m) (n := n) (fid := fid) (ff := ff) (fun T => Tb ff n fid T) (pleClearNj dbg cb) (M4rie.pleClearNj cb) hs (by
    intro A T rowPos j x hA hT hr hj
    obtain ⟨y, e3, e4⟩ := inv_eq x
    obtain ⟨r1, r2⟩ := hA.rescale dbg hs hr hj y
    unfold pleClearNj M4rie.pleClearNj
    simp only []
    rw [hA.ff_eq, e4, e3, Option.bind_some, r1, Option.bind_some]
    obtain ⟨t1, t2, t3⟩ := makeTable_eq dbg hcb hT r2 hs hr hj
    rw [t1, Option.bind_some, r2.nrows_eq]
    obtain ⟨p1, p2⟩ := processRows_eq (startrow := rowPos + 1) (endrow := m) (c := j) (k := 1) r2 (fun _ => t2) (fun _ _ => t3) hs (by omega) (by omega) le_rfl
    rw [p1, Option.bind_some]
    exact ⟨rfl, p2, t2⟩) n ⟨A, P, Q, 0, 0, njtInit ff fid n⟩ ⟨h, by simp, by simp, le_rfl, by simp, tb_init _ _⟩
  rw [h1, Option.bind_some]
  exact pleFinish_eq hs h2

end M4rie.Chk
