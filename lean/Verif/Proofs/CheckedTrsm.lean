import Verif.Proofs.CheckedSlice2
import Verif.Proofs.TrsmRec

/-! Checked triangular solving: the sliced base cases and the recursive template. -/

namespace M4rie.Chk
open M4rie M4rie.Spec

variable {ff : Gf2e} [IsField ff] {m n k fid : Nat} {A B C : Mzed} {L S T U : Slice}

theorem Sd.window (h : Sd ff m n fid S) {lr lc hr hc : Nat} (ha : lc % 64 = 0) (h1 : lr ≤ hr) (h2 : hr ≤ m) (h3 : lc ≤ hc) (h4 : hc ≤ n) {a b : Nat}
    (ea : hr - lr = a) (eb : hc - lc = b) :
    swindow S lr lc hr hc = some (mzdSliceWindow S lr lc hr hc) ∧ Sd ff a b fid (mzdSliceWindow S lr lc hr hc) := by
  refine ⟨?_, ?_⟩
  · unfold swindow
    rw [need_eq ⟨ha, h1, by rw [h.nrows_eq]; exact h2, h3, by rw [h.ncols_eq]; exact h4⟩, Option.bind_some]
  · obtain ⟨X, rfl, rfl, rfl, rfl⟩ := h
    rw [sliceWindow_spack _ _ _ _ _ ha]
    exact ⟨_, rfl, ea, eb, rfl⟩

theorem onSWindow_eqv (hS : Sd ff m n fid S) {lr lc hr hc : Nat} (ha : lc % 64 = 0) (h1 : lr ≤ hr) (h2 : hr ≤ m) (h3 : lc ≤ hc) (h4 : hc ≤ n) {a b : Nat}
    (ea : hr - lr = a) (eb : hc - lc = b) {f g : Slice → Option Slice} (hf : ∀ W, Sd ff a b fid W → Eqv (Sd ff a b fid) (f W) (g W)) :
    Eqv (Sd ff m n fid) (onSWindow S lr lc hr hc f) (M4rie.onSWindow S lr lc hr hc g) := by
  obtain ⟨w1, w2⟩ := hS.window ha h1 h2 h3 h4 ea eb
  unfold onSWindow M4rie.onSWindow
  rw [w1, Option.bind_some]
  obtain ⟨e, hP⟩ := hf _ w2
  rw [e]
  cases hg : g (mzdSliceWindow S lr lc hr hc) with
  | none => exact ⟨rfl, fun r e => by cases e⟩
  | some W =>
    refine Eqv.pure ?_
    obtain ⟨Y, rfl, -, -, -⟩ := hP W hg
    obtain ⟨X, rfl, rfl, rfl, rfl⟩ := hS
    exact ⟨_, sliceWindowWrite_spack X Y lr lc ha, rfl, rfl, rfl⟩

theorem Sd.read (h : Sd ff m n fid S) {i j : Nat} (hi : i < m) (hj : j < n) : ∃ x : Elem ff, mzdSliceReadElem S i j = x.1 ∧ sliceReadElem S i j = some x.1 := by
  have e : sliceReadElem S i j = some (mzdSliceReadElem S i j) := by
    unfold sliceReadElem mzdSliceReadElem
    refine (forC_eq (fun _ _ => True) _ _ _ _ trivial ?_).1
    intro t s ht _
    rw [h.depth_eq] at ht
    have := deg_le (ff := ff)
    rw [need_eq ⟨by rw [h.nrows_eq]; exact hi, by rw [h.ncols_eq]; exact hj⟩, Option.bind_some, shl_eq (by omega), Option.bind_some]
    exact ⟨rfl, trivial⟩
  obtain ⟨X, rfl, rfl, rfl, rfl⟩ := h
  exact ⟨_, sliceRead_spack X i j, e.trans (congrArg some (sliceRead_spack X i j))⟩

theorem strsmAssert_eq (dbg : Bool) (hL : Sd ff m m fid L) (hB : Sd ff m n fid S) : strsmAssert dbg L S = some () :=
  assert_eq ⟨by rw [hL.fid_eq, hB.fid_eq], by rw [hL.nrows_eq, hL.ncols_eq], by rw [hB.nrows_eq, hL.ncols_eq]⟩

theorem strsmUpperNaive_eqv (dbg : Bool) (hL : Sd ff m m fid L) (hB : Sd ff m n fid S) (hs : Sm ff n) (hs' : Sm ff m) (hn : 0 < n) :
    Eqv (Sd ff m n fid) (strsmUpperNaive dbg L S) (mzdSliceTrsmUpperLeftNaive? L S) := by
  unfold strsmUpperNaive mzdSliceTrsmUpperLeftNaive?
  rw [strsmAssert_eq dbg hL hB, Option.bind_some]
  refine Eqv.bind (clingNew_eqv hs' hL) fun Le hLe => Eqv.bind (clingNew_eqv hs hB) fun Be hBe => ?_
  exact Eqv.step (trsmUpperNaive_eq dbg hLe hBe hs hs' hn) fun h => slice_eqv dbg hB h

theorem strsmLowerNaive_eqv (dbg : Bool) (hL : Sd ff m m fid L) (hB : Sd ff m n fid S) (hs : Sm ff n) (hs' : Sm ff m) (hn : 0 < n) :
    Eqv (Sd ff m n fid) (strsmLowerNaive dbg L S) (mzdSliceTrsmLowerLeftNaive? L S) := by
  unfold strsmLowerNaive mzdSliceTrsmLowerLeftNaive?
  rw [strsmAssert_eq dbg hL hB, Option.bind_some]
  refine Eqv.bind (clingNew_eqv hs' hL) fun Le hLe => Eqv.bind (clingNew_eqv hs hB) fun Be hBe => ?_
  exact Eqv.step (trsmLowerNaive_eq dbg hLe hBe hs hs' hn) fun h => slice_eqv dbg hB h

theorem strsmLowerNj_eqv (dbg : Bool) {cb : Codebook} (hcb : cb.Ok ff.degree) (hL : Sd ff m m fid L) (hB : Sd ff m n fid S) (hs : Sm ff n) (hs' : Sm ff m) (hn : 0 < n) :
    Eqv (Sd ff m n fid) (strsmLowerNj dbg cb L S) (mzdSliceTrsmLowerLeftNewtonJohn? cb L S) := by
  unfold strsmLowerNj mzdSliceTrsmLowerLeftNewtonJohn?
  rw [strsmAssert_eq dbg hL hB, Option.bind_some]
  by_cases h0 : 2 ^ L.ff.degree ≥ L.nrows
  · rw [if_pos h0, if_pos h0]; exact strsmLowerNaive_eqv dbg hL hB hs hs' hn
  rw [if_neg h0, if_neg h0]
  refine Eqv.bind (clingNew_eqv hs hB) fun Be hBe => ?_
  have e1 := hB.nrows_eq
  have e2 := hBe.nrows_eq
  have e3 := hB.ff_eq
  have e4 := hB.fid_eq
  have e5 := hB.ncols_eq
  have e6 := hL.ff_eq
  rw [e1, e2, e3, e4, e5, e6]
  obtain ⟨h1, h2⟩ := njLower_loop dbg hcb (rd := sliceReadElem L) (rd' := mzdSliceReadElem L) (fun i j hi hj => hL.read hi hj) hBe hs hn (tb_init fid n)
  exact Eqv.step (P := fun r : Mzed × Njt => Dm ff m n fid r.1) ⟨h1, h2⟩ fun h => slice_eqv dbg hB h

theorem strsmUpperNj_eqv (dbg : Bool) {cb : Codebook} (hcb : cb.Ok ff.degree) (hL : Sd ff m m fid L) (hB : Sd ff m n fid S) (hs : Sm ff n) (hs' : Sm ff m) (hn : 0 < n) :
    Eqv (Sd ff m n fid) (strsmUpperNj dbg cb L S) (mzdSliceTrsmUpperLeftNewtonJohn? cb L S) := by
  unfold strsmUpperNj mzdSliceTrsmUpperLeftNewtonJohn?
  rw [strsmAssert_eq dbg hL hB, Option.bind_some]
  by_cases h0 : 2 ^ L.ff.degree ≥ L.nrows
  · rw [if_pos h0, if_pos h0]; exact strsmUpperNaive_eqv dbg hL hB hs hs' hn
  rw [if_neg h0, if_neg h0]
  refine Eqv.bind (clingNew_eqv hs hB) fun Be hBe => ?_
  have e1 := hB.nrows_eq
  have e3 := hBe.ff_eq
  have e4 := hBe.fid_eq
  have e5 := hBe.ncols_eq
  have e6 := hL.ff_eq
  rw [e1, e3, e4, e5, e6]
  obtain ⟨h1, h2⟩ := njUpper_loop dbg hcb (rd := sliceReadElem L) (rd' := mzdSliceReadElem L) (fun i j hi hj => hL.read hi hj) hBe hs hn (tb_init fid n)
  exact Eqv.step (P := fun r : Mzed × Njt => Dm ff m n fid r.1) ⟨h1, h2⟩ fun h => slice_eqv dbg hB h

/-! ### the template -/

theorem trsmSplit_mod (n : Nat) : trsmSplit n % 64 = 0 := by unfold trsmSplit; omega

/-- the checked operations do what the total ones do -/
structure OpsEqv {τ : Type} (ff : Gf2e) (fid : Nat) (D : Nat → Nat → τ → Prop) (ops : TrsmOps τ) (ops' : M4rie.TrsmOps τ) : Prop where
  nrows : ∀ {m n A}, D m n A → ops.nrows A = m ∧ ops'.nrows A = m
  ncols : ∀ {m n A}, D m n A → ops.ncols A = n ∧ ops'.ncols A = n
  fid : ∀ {m n A}, D m n A → ops.fid A = fid
  window : ∀ {m n A lr lc hr hc a b}, D m n A → Sm ff n → lc % 64 = 0 → lr ≤ hr → hr ≤ m → lc ≤ hc → hc ≤ n → hr - lr = a → hc - lc = b →
    ops.window A lr lc hr hc = some (ops'.window A lr lc hr hc) ∧ D a b (ops'.window A lr lc hr hc)
  window_none : ∀ {m n A lr lc hr hc}, D m n A → m < hr → ops.window A lr lc hr hc = none
  onWindow : ∀ {m n A lr lc hr hc a b} {f g : τ → Option τ}, D m n A → Sm ff n → lc % 64 = 0 → lr ≤ hr → hr ≤ m → lc ≤ hc → hc ≤ n → hr - lr = a → hc - lc = b →
    (∀ W, D a b W → Eqv (D a b) (f W) (g W)) → Eqv (D m n) (ops.onWindow A lr lc hr hc f) (ops'.onWindow A lr lc hr hc g)
  addmul : ∀ {m k n C A B}, D m n C → D m k A → D k n B → Sm ff k → Sm ff n → Eqv (D m n) (ops.addmul C A B) (ops'.addmul C A B)
  lowerNj : ∀ {m n L B}, D m m L → D m n B → Sm ff m → Sm ff n → 0 < n → Eqv (D m n) (ops.lowerNj L B) (ops'.lowerNj L B)
  upperNj : ∀ {m n L B}, D m m L → D m n B → Sm ff m → Sm ff n → 0 < n → Eqv (D m n) (ops.upperNj L B) (ops'.upperNj L B)

section template
variable {τ : Type} {D : Nat → Nat → τ → Prop} {ops : TrsmOps τ} {ops' : M4rie.TrsmOps τ} (H : OpsEqv ff fid D ops ops')
include H

omit [IsField ff] in
theorem trsmLowerF_eqv (dbg : Bool) (cutoff : Int) : ∀ (fuel m n : Nat) (L B : τ), D m m L → D m n B → Sm ff m → Sm ff n → 0 < n →
    Eqv (D m n) (trsmLowerF dbg ops cutoff fuel L B) (M4rie.trsmLowerF ops' cutoff fuel L B) := by
  intro fuel
  induction fuel with
  | zero => intro m n L B _ _ _ _ _; exact ⟨rfl, fun r e => by cases e⟩
  | succ fuel ih =>
    intro m n L B hL hB hm hs hn
    rw [trsmLowerF.eq_def, M4rie.trsmLowerF.eq_def]
    dsimp only
    rw [(H.nrows hL).1, (H.nrows hL).2, (H.ncols hB).1, (H.ncols hB).2, (H.ncols hL).1, (H.nrows hB).1, (H.nrows hB).2, H.fid hL, H.fid hB, assert_eq ⟨rfl, rfl, rfl⟩, Option.bind_some]
    by_cases h0 : (m : Int) ≤ cutoff ∨ (n : Int) ≤ cutoff
    · rw [if_pos h0, if_pos h0]; exact H.lowerNj hL hB hm hs hn
    rw [if_neg h0, if_neg h0]
    have hc64 := trsmSplit_mod m
    generalize trsmSplit m = c at *
    by_cases hc : m < c
    · rw [if_pos hc, H.window_none hB hc]; exact ⟨rfl, fun r e => by cases e⟩
    rw [if_neg hc]
    have hcm : Sm ff c := hm.mono (by omega)
    refine Eqv.step (H.window hB hs (a := c) (b := n) rfl (by omega) (by omega) (by omega) (by omega) (by omega) (by omega)) fun _ => ?_
    refine Eqv.step (H.window hB hs (a := m - c) (b := n) rfl (by omega) (by omega) (by omega) (by omega) (by omega) (by omega)) fun _ => ?_
    refine Eqv.step (H.window hL hm (a := c) (b := c) rfl (by omega) (by omega) (by omega) (by omega) (by omega) (by omega)) fun h00 => ?_
    refine Eqv.step (H.window hL hm (a := m - c) (b := c) rfl (by omega) (by omega) (by omega) (by omega) (by omega) (by omega)) fun h10 => ?_
    refine Eqv.step (H.window hL hm (a := m - c) (b := m - c) hc64 (by omega) (by omega) (by omega) (by omega) (by omega) (by omega)) fun h11 => ?_
    refine Eqv.bind (H.onWindow hB hs (a := c) (b := n) rfl (by omega) (by omega) (by omega) (by omega) (by omega) (by omega) fun W hW => ih _ _ _ _ h00 hW hcm hs hn) fun B hB => ?_
    refine Eqv.bind (H.onWindow hB hs (a := m - c) (b := n) rfl (by omega) (by omega) (by omega) (by omega) (by omega) (by omega) fun W hW =>
      Eqv.step (H.window hB hs (a := c) (b := n) rfl (by omega) (by omega) (by omega) (by omega) (by omega) (by omega)) fun h0 => H.addmul hW h10 h0 hcm hs) fun B hB => ?_
    exact H.onWindow hB hs (a := m - c) (b := n) rfl (by omega) (by omega) (by omega) (by omega) (by omega) (by omega) fun W hW => ih _ _ _ _ h11 hW (hm.mono (by omega)) hs hn

omit [IsField ff] in
theorem trsmUpperF_eqv (dbg : Bool) (cutoff : Int) : ∀ (fuel m n : Nat) (L B : τ), D m m L → D m n B → Sm ff m → Sm ff n → 0 < n →
    Eqv (D m n) (trsmUpperF dbg ops cutoff fuel L B) (M4rie.trsmUpperF ops' cutoff fuel L B) := by
  intro fuel
  induction fuel with
  | zero => intro m n L B _ _ _ _ _; exact ⟨rfl, fun r e => by cases e⟩
  | succ fuel ih =>
    intro m n L B hL hB hm hs hn
    rw [trsmUpperF.eq_def, M4rie.trsmUpperF.eq_def]
    dsimp only
    rw [(H.nrows hL).1, (H.nrows hL).2, (H.ncols hB).1, (H.ncols hB).2, (H.ncols hL).1, (H.nrows hB).1, (H.nrows hB).2, H.fid hL, H.fid hB, assert_eq ⟨rfl, rfl, rfl⟩, Option.bind_some]
    by_cases h0 : (m : Int) ≤ cutoff ∨ (n : Int) ≤ cutoff
    · rw [if_pos h0, if_pos h0]; exact H.upperNj hL hB hm hs hn
    rw [if_neg h0, if_neg h0]
    have hc64 := trsmSplit_mod m
    generalize trsmSplit m = c at *
    by_cases hc : m < c
    · rw [if_pos hc, H.window_none hB hc]; exact ⟨rfl, fun r e => by cases e⟩
    rw [if_neg hc]
    have hcm : Sm ff c := hm.mono (by omega)
    refine Eqv.step (H.window hB hs (a := c) (b := n) rfl (by omega) (by omega) (by omega) (by omega) (by omega) (by omega)) fun _ => ?_
    refine Eqv.step (H.window hB hs (a := m - c) (b := n) rfl (by omega) (by omega) (by omega) (by omega) (by omega) (by omega)) fun _ => ?_
    refine Eqv.step (H.window hL hm (a := c) (b := c) rfl (by omega) (by omega) (by omega) (by omega) (by omega) (by omega)) fun h00 => ?_
    refine Eqv.step (H.window hL hm (a := c) (b := m - c) hc64 (by omega) (by omega) (by omega) (by omega) (by omega) (by omega)) fun h01 => ?_
    refine Eqv.step (H.window hL hm (a := m - c) (b := m - c) hc64 (by omega) (by omega) (by omega) (by omega) (by omega) (by omega)) fun h11 => ?_
    refine Eqv.bind (H.onWindow hB hs (a := m - c) (b := n) rfl (by omega) (by omega) (by omega) (by omega) (by omega) (by omega) fun W hW => ih _ _ _ _ h11 hW (hm.mono (by omega)) hs hn) fun B hB => ?_
    refine Eqv.bind (H.onWindow hB hs (a := c) (b := n) rfl (by omega) (by omega) (by omega) (by omega) (by omega) (by omega) fun W hW =>
      Eqv.step (H.window hB hs (a := m - c) (b := n) rfl (by omega) (by omega) (by omega) (by omega) (by omega) (by omega)) fun h1 => H.addmul hW h01 h1 (hm.mono (by omega)) hs) fun B hB => ?_
    exact H.onWindow hB hs (a := c) (b := n) rfl (by omega) (by omega) (by omega) (by omega) (by omega) (by omega) fun W hW => ih _ _ _ _ h00 hW hcm hs hn

end template

theorem eqv_of {α : Type} {P : α → Prop} {x : Option α} {a : α} (h : x = some a ∧ P a) : Eqv P x (some a) := ⟨h.1, fun _ e => by cases e; exact h.2⟩

theorem mzedOps (dbg : Bool) {env : MulEnv} (hcb : env.cb.Ok ff.degree) (hbs : 16 ≤ env.bs) : OpsEqv ff fid (fun m n A => Dm ff m n fid A) (mzedTrsmOps dbg env) (M4rie.mzedTrsmOps env) where
  nrows h := ⟨h.nrows_eq, h.nrows_eq⟩
  ncols h := ⟨h.ncols_eq, h.ncols_eq⟩
  fid h := h.fid_eq
  window h hs ha h1 h2 h3 h4 ea eb := h.window hs (by rw [Nat.mul_mod, ha, Nat.mul_zero, Nat.zero_mod]) h1 h2 h3 h4 ea eb
  window_none := by
    intro m n A lr lc hr hc h hh
    show Chk.window A lr lc hr hc = none
    unfold Chk.window
    refine bindn fun _ => bindn fun _ => ?_
    rw [show need _ = none from if_neg (by rw [h.nrows_eq]; omega)]
    rfl
  onWindow h hs ha h1 h2 h3 h4 ea eb hf := onWindow_eqv h hs (by rw [Nat.mul_mod, ha, Nat.mul_zero, Nat.zero_mod]) h1 h2 h3 h4 ea eb hf
  addmul hC hA hB hk hs := addmulM_eqv hcb hbs dbg hk hs _ _ _ hC hA hB
  lowerNj hL hB hm hs hn := eqv_of (trsmLowerNj_eq dbg hcb hL hB hs hm hn)
  upperNj hL hB hm hs hn := eqv_of (trsmUpperNj_eq dbg hcb hL hB hs hm hn)

theorem sliceOps (dbg : Bool) {cb : Codebook} (hcb : cb.Ok ff.degree) : OpsEqv ff fid (fun m n A => Sd ff m n fid A) (sliceTrsmOps dbg cb) (M4rie.sliceTrsmOps cb) where
  nrows h := ⟨h.nrows_eq, h.nrows_eq⟩
  ncols h := ⟨h.ncols_eq, h.ncols_eq⟩
  fid h := h.fid_eq
  window h _ ha h1 h2 h3 h4 ea eb := h.window ha h1 h2 h3 h4 ea eb
  window_none := by
    intro m n A lr lc hr hc h hh
    show Chk.swindow A lr lc hr hc = none
    unfold Chk.swindow
    rw [show need _ = none from if_neg (by rw [h.nrows_eq]; omega)]
    rfl
  onWindow h _ ha h1 h2 h3 h4 ea eb hf := onSWindow_eqv h ha h1 h2 h3 h4 ea eb hf
  addmul hC hA hB _ _ := sliceAddmulKaratsuba_eqv hC hA hB
  lowerNj hL hB hm hs hn := strsmLowerNj_eqv dbg hcb hL hB hs hm hn
  upperNj hL hB hm hs hn := strsmUpperNj_eqv dbg hcb hL hB hs hm hn

end M4rie.Chk
