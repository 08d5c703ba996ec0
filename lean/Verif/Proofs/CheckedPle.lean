import Verif.Proofs.CheckedTrsm
import Verif.Proofs.EchPle
import Verif.Model.CheckedPle

/-! Checked recursive PLE. -/

namespace M4rie.Chk
open M4rie M4rie.Spec

variable {ff : Gf2e} [IsField ff] {m n k fid : Nat} {A : Mzed} {S T : Slice}

/-- the result of a total routine with the lengths of the permutations -/
def lift {τ : Type} (a b : Nat) (r : τ × (Nat → Nat) × (Nat → Nat) × Nat) : τ × Mzp × Mzp × Nat := (r.1, ⟨a, r.2.1⟩, ⟨b, r.2.2.1⟩, r.2.2.2)

theorem pshift_eq {d : Nat} (P : Mzp) : ∀ k, k ≤ P.length → pshift k d P = some ⟨P.length, fun i => if i < k then P.val i + d else P.val i⟩
  | 0, _ => rfl
  | k + 1, h => by
    have ih := pshift_eq (d := d) P k (by omega)
    show (forC _ k P).bind _ = _
    rw [show forC _ k P = _ from ih, Option.bind_some]
    dsimp only [pget, pput]
    rw [if_pos (show k < P.length by omega), Option.bind_some, if_pos (show k < P.length by omega)]
    refine congrArg some ?_
    show (⟨P.length, _⟩ : Mzp) = ⟨P.length, _⟩
    congr 1
    funext i
    simp only [setNat]
    by_cases hi : i = k
    · subst hi
      rw [if_pos rfl, if_neg (Nat.lt_irrefl i), if_pos (Nat.lt_succ_self i)]
    · rw [if_neg hi]
      by_cases h2 : i < k
      · rw [if_pos h2, if_pos (by omega)]
      · rw [if_neg h2, if_neg (by omega)]

theorem pcopy_eq {r1 n1 : Nat} (Q : Mzp) : ∀ r2, n1 + r2 ≤ Q.length → r1 ≤ n1 →
    pcopy r1 n1 r2 Q = some ⟨Q.length, forN (fun t Q => setNat Q (r1 + t) (Q (n1 + t))) r2 Q.val⟩
  | 0, _, _ => rfl
  | k + 1, h, h' => by
    have ih := pcopy_eq (r1 := r1) (n1 := n1) Q k (by omega) h'
    show (forC _ k Q).bind _ = _
    rw [show forC _ k Q = _ from ih, Option.bind_some]
    dsimp only [pget, pput]
    rw [if_pos (show n1 + k < Q.length by omega), Option.bind_some, if_pos (show r1 + k < Q.length by omega)]
    rfl

theorem pwindow_eq {lo hi : Nat} (P : Mzp) (h : lo ≤ hi) (h' : hi ≤ P.length) : pwindow P lo hi = some ⟨hi - lo, fun i => P.val (lo + i)⟩ := by
  unfold pwindow; rw [need_eq ⟨h, h'⟩, Option.bind_some]

theorem onSWindow_some (hS : Sd ff m n fid S) {lr lc hr hc : Nat} (ha : lc % 64 = 0) (h1 : lr ≤ hr) (h2 : hr ≤ m) (h3 : lc ≤ hc) (h4 : hc ≤ n) {a b : Nat}
    (ea : hr - lr = a) (eb : hc - lc = b) {f : Slice → Option Slice} {g : Slice → Slice} (hf : ∀ W, Sd ff a b fid W → f W = some (g W) ∧ Sd ff a b fid (g W)) :
    onSWindow S lr lc hr hc f = some (sliceSetWindow S lr lc (g (mzdSliceWindow S lr lc hr hc))) ∧
      Sd ff m n fid (sliceSetWindow S lr lc (g (mzdSliceWindow S lr lc hr hc))) := by
  obtain ⟨e1, e2⟩ := onSWindow_eqv hS ha h1 h2 h3 h4 ea eb (f := f) (g := fun W => some (g W)) fun W hW => by
    obtain ⟨x, y⟩ := hf W hW; rw [x]; exact Eqv.pure y
  exact ⟨e1, e2 _ rfl⟩

theorem Sd.applyPLeft (hS : Sd ff m n fid S) {P : Mzp} (hP : ∀ i, i < m → i ≤ P.val i ∧ P.val i < m) :
    sliceApplyPLeft S P = some (mzdSliceApplyPLeft S P) ∧ Sd ff m n fid (mzdSliceApplyPLeft S P) := by
  refine ⟨?_, ?_⟩
  · unfold sliceApplyPLeft
    rw [hS.nrows_eq, need_eq (show permOk P (min P.length m) m from fun i hi => hP i (by omega)), Option.bind_some]
  · obtain ⟨X, rfl, rfl, rfl, rfl⟩ := hS
    exact ⟨_, sliceApplyPLeft_spack X P, rfl, rfl, rfl⟩

theorem Sd.applyPRight (hS : Sd ff m n fid S) {P : Mzp} (hP : ∀ i, i < n → i ≤ P.val i ∧ P.val i < n) :
    sliceApplyPRight S P = some (mzdSliceApplyPRight S P) ∧ Sd ff m n fid (mzdSliceApplyPRight S P) := by
  refine ⟨?_, ?_⟩
  · unfold sliceApplyPRight
    rw [hS.ncols_eq, need_eq (show permOk P (min P.length n) n from fun i hi => hP i (by omega)), Option.bind_some]
  · obtain ⟨X, rfl, rfl, rfl, rfl⟩ := hS
    exact ⟨_, sliceApplyPRight_spack X P, rfl, rfl, rfl⟩

theorem Sd.applyTri (hS : Sd ff m n fid S) {P : Mzp} (hl : P.length = n) (hP : ∀ i, i < n → i ≤ P.val i ∧ P.val i < n) :
    sliceApplyPRightTransTri S P = some (mzdSliceApplyPRightTransTri S P) ∧ Sd ff m n fid (mzdSliceApplyPRightTransTri S P) := by
  refine ⟨?_, ?_⟩
  · unfold sliceApplyPRightTransTri
    rw [hS.ncols_eq, need_eq (show P.length = n ∧ permOk P n n from ⟨hl, fun i hi => hP i (by omega)⟩), Option.bind_some]
  · obtain ⟨X, rfl, rfl, rfl, rfl⟩ := hS
    exact ⟨_, sliceApplyPRightTransTri_spack X P, rfl, rfl, rfl⟩

theorem slicePleBase_eq (dbg : Bool) {cb : Codebook} (hcb : cb.Ok ff.degree) (hS : Sd ff m n fid S) (hs : Sm ff n) {P Q : Mzp} (hP : m ≤ P.length) (hQ : n ≤ Q.length) :
    slicePleBase dbg cb S P Q = (mzdSlicePleBase? cb S P.val Q.val).map (lift P.length Q.length) := by
  obtain ⟨e, hD⟩ := clingNew_eqv hs hS
  unfold slicePleBase mzdSlicePleBase?
  rw [e]
  cases hc : mzedClingNew? S with
  | none => rfl
  | some Abar =>
    have hA := hD _ hc
    rw [Option.bind_some, Option.bind_some, need_eq ⟨by rw [hA.nrows_eq]; exact hP, by rw [hA.ncols_eq]; exact hQ⟩, Option.bind_some,
      pleNj_eq dbg hcb hA hs, Option.bind_some]
    have hd : Dm ff m n fid (mzedPleNewtonJohn cb Abar P.val Q.val).1 := by
      obtain ⟨X, rfl, rfl, rfl, rfl⟩ := hA
      obtain ⟨Z, P', Q', r, h1, h2, -⟩ := pleNj_pack hcb X P.val Q.val
      rw [h1]
      exact ⟨Z, rfl, h2.nrows, h2.ncols, h2.fid⟩
    dsimp only
    rw [(slice_eqv dbg hS hd).1, Option.map_map]
    cases mzedSlice? S (mzedPleNewtonJohn cb Abar P.val Q.val).1 <;> rfl

theorem pleSchur_eqv (dbg : Bool) {cb : Codebook} (hcb : cb.Ok ff.degree) (hS : Sd ff m n fid S) (hs : Sm ff n) {P : Nat → Nat} {r n1 : Nat}
    (hP : ∀ i, i < m → i ≤ P i ∧ P i < m) (hr : r ≤ m) (hrn : r ≤ n1) (hn : n1 < n) (h64 : n1 % 64 = 0) :
    Eqv (Sd ff m n fid) (pleSchur dbg cb S ⟨m, P⟩ r n1) (pleSchur? cb S P r n1) := by
  unfold pleSchur pleSchur?
  dsimp only
  rw [hS.nrows_eq, hS.ncols_eq]
  by_cases h0 : r = 0
  · rw [if_pos h0, if_pos h0]; exact Eqv.pure hS
  rw [if_neg h0, if_neg h0]
  refine Eqv.step (onSWindow_some hS (g := fun W => mzdSliceApplyPLeft W ⟨m, P⟩) h64 (by omega) (by omega) (by omega) (by omega) (a := m) (b := n - n1) (by omega) (by omega)
    fun W hW => hW.applyPLeft hP) fun hA => ?_
  generalize sliceSetWindow S 0 n1 _ = A1 at *
  refine Eqv.bind (onSWindow_eqv hA h64 (by omega) (by omega) (by omega) (by omega) (a := r) (b := n - n1) (by omega) (by omega) fun W hW => ?_) fun A2 hA2 => ?_
  · refine Eqv.step (hA.window (a := r) (b := r) rfl (by omega) (by omega) (by omega) (by omega) (by omega) (by omega)) fun h00 => ?_
    have := trsmLowerF_eqv (sliceOps (fid := fid) dbg hcb) dbg mzedTrsmCutoff (W.nrows + 1) r (n - n1) _ W h00 hW (hs.mono (by omega)) (hs.mono (by omega)) (by omega)
    exact this
  · refine onSWindow_eqv hA2 h64 (by omega) (by omega) (by omega) (by omega) (a := m - r) (b := n - n1) (by omega) (by omega) fun W hW => ?_
    refine Eqv.step (hA2.window (a := m - r) (b := r) rfl (by omega) (by omega) (by omega) (by omega) (by omega) (by omega)) fun h10 => ?_
    refine Eqv.step (hA2.window (a := r) (b := n - n1) h64 (by omega) (by omega) (by omega) (by omega) (by omega) (by omega)) fun h01 => ?_
    exact sliceAddmulKaratsuba_eqv hW h10 h01

theorem lift_some {τ : Type} {a b : Nat} (x : τ) (p q : Nat → Nat) (r : Nat) : (some (x, p, q, r)).map (lift a b) = some (x, ⟨a, p⟩, ⟨b, q⟩, r) := rfl

theorem slicePleF_eq (dbg : Bool) {env : PleEnv} (hc : CompressOk env.compress) (hcb : env.cb.Ok ff.degree) :
    ∀ (fuel : Nat) (X : Mat ff) (P Q : Mzp), X.ncols < fuel → Sm ff X.ncols → X.nrows ≤ P.length → X.ncols ≤ Q.length →
      slicePleF dbg env fuel X.spack P Q = (mzdSlicePleF env fuel X.spack P.val Q.val).map (lift P.length Q.length)
  | 0, _, _, _, h, _, _, _ => absurd h (by omega)
  | fuel + 1, X, P, Q, hf, hs, hP, hQ => by
    obtain ⟨Pl, Pv⟩ := P
    obtain ⟨Ql, Qv⟩ := Q
    dsimp only at hP hQ
    have hX : Sd ff X.nrows X.ncols X.fid X.spack := ⟨X, rfl, rfl, rfl, rfl⟩
    rw [slicePleF.eq_def, mzdSlicePleF.eq_def]
    dsimp only
    rw [spack_nrows, spack_ncols]
    by_cases hb : X.ncols ≤ 64 ∨ env.small X.nrows X.ncols = true
    · rw [if_pos hb, if_pos hb]; exact slicePleBase_eq dbg hcb hX hs hP hQ
    rw [if_neg hb, if_neg hb]
    obtain ⟨hn64, hn0, hn⟩ := pleSplit_spec (n := X.ncols) (by omega)
    generalize pleSplit X.ncols = n1 at *
    rw [(hX.window (a := X.nrows) (b := n1) rfl (by omega) (by omega) (by omega) (by omega) (by omega) (by omega)).1, Option.bind_some,
      (hX.window (a := X.nrows) (b := X.ncols - n1) hn64 (by omega) (by omega) (by omega) (by omega) (by omega) (by omega)).1, Option.bind_some,
      pwindow_eq ⟨Pl, Pv⟩ (by omega) hP, Option.bind_some, pwindow_eq ⟨Ql, Qv⟩ (by omega) (by show n1 ≤ Ql; omega), Option.bind_some]
    dsimp only
    rw [show (fun i => Pv (0 + i)) = Pv by funext i; rw [Nat.zero_add], show (fun i => Qv (0 + i)) = Qv by funext i; rw [Nat.zero_add], Nat.sub_zero, Nat.sub_zero,
      sliceWindow_spack X 0 0 _ _ rfl]
    rw [slicePleF_eq dbg hc hcb fuel (X.window 0 0 X.nrows n1) ⟨X.nrows, Pv⟩ ⟨n1, Qv⟩ (by simp; omega) (hs.mono (by simp; omega)) (by simp) (by simp)]
    obtain ⟨Z1, P1, Q1, r1, e1, s1, d1, f1, p1, q1, i1⟩ := mzdSlicePleF_spack hc hcb fuel (X.window 0 0 X.nrows n1) Pv Qv (by simp; omega)
    simp only [Mat.window_nrows, Mat.window_ncols, Nat.sub_zero] at s1 d1 p1 q1 i1
    rw [e1, lift_some, Option.bind_some, Option.bind_some]
    dsimp only [pmerge]
    have eA1 := sliceSetWindow_spack X Z1 0 0 rfl
    rw [eA1]
    have hA1 : Sd ff X.nrows X.ncols X.fid (X.unwindow 0 0 Z1).spack := ⟨_, rfl, rfl, rfl, rfl⟩
    have hle1 := d1.le
    have hrle1 := d1.rle
    rw [(hA1.window (a := r1) (b := r1) rfl (by omega) (by omega) (by omega) (by omega) (by omega) (by omega)).1, Option.bind_some,
      (hA1.window (a := X.nrows - r1) (b := r1) rfl (by omega) (by omega) (by omega) (by omega) (by omega) (by omega)).1, Option.bind_some,
      (hA1.window (a := r1) (b := X.ncols - n1) hn64 (by omega) (by omega) (by omega) (by omega) (by omega) (by omega)).1, Option.bind_some,
      (hA1.window (a := X.nrows - r1) (b := X.ncols - n1) hn64 (by omega) (by omega) (by omega) (by omega) (by omega) (by omega)).1, Option.bind_some]
    obtain ⟨eS, hS⟩ := pleSchur_eqv dbg hcb hA1 hs (P := P1) d1.perm hle1 hrle1 hn hn64
    rw [eS]
    cases hz : pleSchur? env.cb (X.unwindow 0 0 Z1).spack P1 r1 n1 with
    | none => rfl
    | some A2 =>
      rw [Option.bind_some, Option.bind_some]
      obtain ⟨Y, rfl, hy1, hy2, hy3⟩ := hS _ hz
      have hY : Sd ff X.nrows X.ncols X.fid Y.spack := ⟨Y, rfl, hy1, hy2, hy3⟩
      rw [pwindow_eq ⟨Pl, _⟩ (by omega) hP, Option.bind_some, pwindow_eq ⟨Ql, _⟩ (by omega) hQ, Option.bind_some,
        (hY.window (a := X.nrows - r1) (b := X.ncols - n1) hn64 (by omega) (by omega) (by omega) (by omega) (by omega) (by omega)).1, Option.bind_some,
        sliceWindow_spack Y r1 n1 _ _ hn64]
      dsimp only
      rw [show (fun i => if r1 + i < 0 then Pv (r1 + i) else P1 (r1 + i - 0)) = fun i => P1 (r1 + i) by
          funext i; rw [if_neg (by omega), Nat.sub_zero],
        show (fun i => if n1 + i < 0 then Qv (n1 + i) else Q1 (n1 + i - 0)) = fun i => Q1 (n1 + i) by
          funext i; rw [if_neg (by omega), Nat.sub_zero],
        slicePleF_eq dbg hc hcb fuel (Y.window r1 n1 X.nrows X.ncols) ⟨X.nrows - r1, fun i => P1 (r1 + i)⟩ ⟨X.ncols - n1, fun i => Q1 (n1 + i)⟩
          (by simp; omega) (hs.mono (by simp)) (by simp) (by simp)]
      obtain ⟨Z2, P2, Q2, r2, e2, s2, d2, f2, p2, q2, i2⟩ := mzdSlicePleF_spack hc hcb fuel (Y.window r1 n1 X.nrows X.ncols)
        (fun i => P1 (r1 + i)) (fun i => Q1 (n1 + i)) (by simp; omega)
      simp only [Mat.window_nrows, Mat.window_ncols] at s2 d2 p2 q2 i2
      have hle2 := d2.le
      have hrle2 := d2.rle
      dsimp only
      rw [e2, lift_some, Option.bind_some, Option.bind_some]
      dsimp only
      rw [sliceSetWindow_spack Y Z2 r1 n1 hn64]
      have hA3 : Sd ff X.nrows X.ncols X.fid (Y.unwindow r1 n1 Z2).spack := ⟨_, rfl, hy1, hy2, hy3⟩
      obtain ⟨o1, o2⟩ := onSWindow_some hA3 (g := fun W => mzdSliceApplyPLeft W ⟨X.nrows - r1, P2⟩) (lc := 0) rfl (by omega) (by omega) (by omega) (by omega)
        (a := X.nrows - r1) (b := r1) (lr := r1) (hr := X.nrows) (hc := r1) (f := fun A10 => sliceApplyPLeft A10 ⟨X.nrows - r1, P2⟩) (by omega) (by omega) fun W hW => hW.applyPLeft d2.perm
      rw [o1, Option.bind_some, pshift_eq ⟨_, P2⟩ _ le_rfl, Option.bind_some, pshift_eq ⟨_, Q2⟩ _ le_rfl, Option.bind_some,
        pcopy_eq ⟨Ql, _⟩ _ (by show n1 + r2 ≤ Ql; omega) hrle1, Option.bind_some]
      unfold sliceCompressL
      rw [need_eq ⟨hrle1, by rw [o2.ncols_eq]; omega, by rw [o2.nrows_eq]; omega⟩, Option.bind_some, lift_some]
      refine congrArg some (Prod.ext rfl (Prod.ext ?_ (Prod.ext ?_ rfl)))
      · refine congrArg (Mzp.mk Pl) ?_
        funext i
        show (if i < r1 then (if i < 0 then Pv i else P1 (i - 0)) else _) = if i < r1 then P1 i else _
        by_cases h : i < r1
        · rw [if_pos h, if_pos h, if_neg (by omega), Nat.sub_zero]
        · rw [if_neg h, if_neg h]
      · refine congrArg (Mzp.mk Ql) ?_
        unfold pleMergeQ
        dsimp only
        refine congrArg (forN _ r2) ?_
        funext i
        by_cases h : i < n1
        · rw [if_pos h, if_pos h, if_neg (by omega), Nat.sub_zero]
        · rw [if_neg h, if_neg h]

variable {env : PleEnv}

section ple
variable (dbg : Bool) (hc : CompressOk env.compress) (hcb : env.cb.Ok ff.degree)
include hc hcb

theorem slicePle_eq (X : Mat ff) (P Q : Mzp) (hs : Sm ff X.ncols) (hP : X.nrows ≤ P.length) (hQ : X.ncols ≤ Q.length) :
    slicePle dbg env X.spack P Q = (mzdSlicePle? env X.spack P.val Q.val).map (lift P.length Q.length) :=
  slicePleF_eq dbg hc hcb _ X P Q (by simp) hs hP hQ

theorem slicePluq_eq (X : Mat ff) (P Q : Mzp) (hs : Sm ff X.ncols) (hP : X.nrows ≤ P.length) (hQ : X.ncols = Q.length) :
    slicePluq dbg env X.spack P Q = (mzdSlicePluq? env X.spack P.val Q.val).map (lift P.length Q.length) := by
  unfold slicePluq mzdSlicePluq?
  rw [slicePle_eq dbg hc hcb X P Q hs hP hQ.le]
  obtain ⟨Z, P', Q', r, e1, s1, d1, -⟩ := mzdSlicePle_spack hc hcb X P.val Q.val
  rw [e1, lift_some, Option.bind_some, Option.map_some]
  dsimp only
  have hZ : Sd ff X.nrows X.ncols X.fid Z.spack := ⟨Z, rfl, s1.nrows, s1.ncols, s1.fid⟩
  have hrle := d1.le
  rw [hZ.nrows_eq, hZ.ncols_eq, lift_some, ← hQ]
  by_cases hr : r ≠ 0 ∧ r < X.nrows
  · rw [if_pos hr, if_pos hr, (onSWindow_some hZ (g := fun W => mzdSliceApplyPRightTransTri W ⟨X.ncols, Q'⟩) (lc := 0) rfl (by omega) (by omega) (by omega) le_rfl (a := r) (b := X.ncols)
      (by omega) (by omega) fun W hW => hW.applyTri rfl d1.piv).1]
    rfl
  · rw [if_neg hr, if_neg hr, (hZ.applyTri (P := ⟨X.ncols, Q'⟩) rfl d1.piv).1]
    rfl

theorem mzedPle_eq (X : Mat ff) (P Q : Mzp) (hs : Sm ff X.ncols) (hP : X.nrows ≤ P.length) (hQ : X.ncols ≤ Q.length) :
    mzedPle dbg env X.pack P Q = (mzedPle? env X.pack P.val Q.val).map (lift P.length Q.length) := by
  unfold mzedPle mzedPle?
  have hX : Dm ff X.nrows X.ncols X.fid X.pack := ⟨X, rfl, rfl, rfl, rfl⟩
  rw [hX.nrows_eq, hX.ncols_eq]
  by_cases hb : 64 < X.ncols ∧ ¬ env.small X.nrows X.ncols = true
  · rw [if_pos hb, if_pos hb, (sliceNew_eqv dbg hX).1, sliceNew_spack, Option.bind_some, Option.bind_some, slicePle_eq dbg hc hcb X.trim P Q hs hP hQ]
    obtain ⟨Z, P', Q', r, e1, s1, -⟩ := mzdSlicePle_spack hc hcb X.trim P.val Q.val
    rw [e1, lift_some, Option.bind_some, Option.bind_some]
    dsimp only
    have hZ : Sd ff X.nrows X.ncols X.fid Z.spack := ⟨Z, rfl, s1.nrows, s1.ncols, s1.fid⟩
    rw [(cling_eqv hX hs hZ).1]
    cases mzedCling? X.pack Z.spack <;> rfl
  · rw [if_neg hb, if_neg hb, need_eq ⟨hP, hQ⟩, Option.bind_some, pleNj_eq dbg hcb hX hs]
    rfl

end ple

/-! ### elimination -/

theorem Sd.writeElem (hS : Sd ff m n fid S) {i j : Nat} (hi : i < m) (hj : j < n) (x : Elem ff) :
    sliceWriteElem S i j x.1 = some (mzdSliceWriteElem S i j x.1) ∧ Sd ff m n fid (mzdSliceWriteElem S i j x.1) := by
  refine ⟨?_, ?_⟩
  · unfold sliceWriteElem
    rw [need_eq ⟨by rw [hS.nrows_eq]; exact hi, by rw [hS.ncols_eq]; exact hj⟩, Option.bind_some]
  · obtain ⟨X, rfl, rfl, rfl, rfl⟩ := hS
    exact ⟨_, sliceWriteElem_spack X i j x, rfl, rfl, rfl⟩

theorem Sd.setUi (hS : Sd ff m n fid S) (x : Elem ff) : Sd ff m n fid (mzdSliceSetUi S x.1) := by
  obtain ⟨X, rfl, rfl, rfl, rfl⟩ := hS
  exact ⟨_, sliceSetUi_spack X x, rfl, rfl, rfl⟩

theorem sliceOnes_eq (hS : Sd ff m n fid S) {r : Nat} (hr : r ≤ m) (hrn : r ≤ n) :
    sliceOnes S r = some (sliceSetWindow S 0 0 (forN (fun i U => mzdSliceWriteElem U i i 1#64) r (mzdSliceWindow S 0 0 r r))) ∧
    Sd ff m n fid (sliceSetWindow S 0 0 (forN (fun i U => mzdSliceWriteElem U i i 1#64) r (mzdSliceWindow S 0 0 r r))) := by
  refine onSWindow_some hS (g := fun W => forN (fun i U => mzdSliceWriteElem U i i 1#64) r W) rfl (by omega) hr (by omega) hrn (a := r) (b := r) (by omega) (by omega) fun W hW => ?_
  exact forC_eq (fun _ W => Sd ff r r fid W) _ _ r W hW fun i W hi hW => hW.writeElem hi hi (1 : Elem ff)

theorem sliceSubmatrix_eq (hS : Sd ff m n fid S) {lr lc hr hc : Nat} (h1 : lr ≤ hr) (h2 : hr ≤ m) (h3 : lc ≤ hc) (h4 : hc ≤ n) {a b : Nat} (ea : hr - lr = a) (eb : hc - lc = b) :
    sliceSubmatrix S lr lc hr hc = some (mzdSliceSubmatrix S lr lc hr hc) ∧ Sd ff a b fid (mzdSliceSubmatrix S lr lc hr hc) := by
  refine ⟨?_, ?_⟩
  · unfold sliceSubmatrix
    rw [need_eq ⟨h1, by rw [hS.nrows_eq]; exact h2, h3, by rw [hS.ncols_eq]; exact h4⟩, Option.bind_some]
  · obtain ⟨X, rfl, rfl, rfl, rfl⟩ := hS
    exact ⟨_, sliceSubmatrix_spack X lr lc hr hc, ea, eb, rfl⟩

theorem sliceCopy_eqv (hS : Sd ff m n fid S) (hT : Sd ff m n fid T) : Eqv (Sd ff m n fid) (sliceCopy S T) (some (mzdSliceCopy S T)) := by
  refine eqv_of ⟨?_, ?_⟩
  · unfold sliceCopy
    rw [need_eq ⟨by rw [hS.depth_eq, hT.depth_eq], by rw [hS.nrows_eq, hT.nrows_eq], by rw [hS.ncols_eq, hT.ncols_eq]⟩, Option.bind_some]
  · obtain ⟨X, rfl, rfl, rfl, rfl⟩ := hS
    obtain ⟨Y, rfl, -, -, -⟩ := hT
    exact ⟨_, sliceCopy_spack X Y, rfl, rfl, rfl⟩

theorem strsmUpper_eqv (dbg : Bool) {cb : Codebook} (hcb : cb.Ok ff.degree) (hS : Sd ff m m fid S) (hT : Sd ff m n fid T) (hm : Sm ff m) (hs : Sm ff n) (hn : 0 < n) (cutoff : Int) :
    Eqv (Sd ff m n fid) (strsmUpper dbg cb S T cutoff) (mzdSliceTrsmUpperLeft? cb S T cutoff) :=
  trsmUpperF_eqv (sliceOps (fid := fid) dbg hcb) dbg cutoff (T.nrows + 1) m n S T hS hT hm hs hn

theorem echPleSolve_eqv (dbg : Bool) {cb : Codebook} (hcb : cb.Ok ff.degree) (hS : Sd ff m n fid S) (hs : Sm ff n) {r : Nat} (hr : r ≤ m) (hrn : r ≤ n) :
    Eqv (Sd ff m n fid) (echPleSolve dbg cb S r) (echPleSolve? cb S r) := by
  unfold echPleSolve echPleSolve?
  dsimp only
  rw [hS.ncols_eq]
  have hU : ∀ {V : Slice}, Sd ff m n fid V → swindow V 0 0 r r = some (mzdSliceWindow V 0 0 r r) ∧ Sd ff r r fid (mzdSliceWindow V 0 0 r r) := fun hV =>
    hV.window rfl (by omega) hr (by omega) hrn (by omega) (by omega)
  refine Eqv.step (hU hS) fun _ => ?_
  refine Eqv.bind (P := Sd ff m n fid) ?_ fun A hA => ?_
  · by_cases h1 : 64 * (r / 64) = r ∧ r ≠ n
    · rw [if_pos h1, if_pos h1]
      refine Eqv.step (sliceOnes_eq hS hr hrn) fun hA => ?_
      generalize sliceSetWindow S 0 0 _ = A1 at *
      refine onSWindow_eqv hA (by omega) (by omega) hr hrn le_rfl (a := r) (b := n - r) (by omega) rfl fun W hW => ?_
      exact Eqv.step (hU hA) fun hu => strsmUpper_eqv dbg hcb hu hW (hs.mono hrn) (hs.mono (by omega)) (by omega) _
    rw [if_neg h1, if_neg h1]
    by_cases h2 : 64 * (r / 64) ≠ r ∧ r ≠ n
    · rw [if_pos h2, if_pos h2, assert_eq (by omega), Option.bind_some]
      have hrr : 64 * (r / 64) % 64 = 0 := by omega
      have hlt : 64 * (r / 64) ≤ r := by omega
      generalize 64 * (r / 64) = rr at *
      by_cases h3 : n > rr + 64
      · rw [if_pos h3, if_pos h3]
        refine Eqv.step (sliceSubmatrix_eq hS (by omega) hr (by omega) (by omega) (a := r) (b := 64) (by omega) (by omega)) fun hB => ?_
        refine Eqv.step (sliceOnes_eq hS hr hrn) fun hA => ?_
        generalize sliceSetWindow S 0 0 _ = A1 at *
        refine Eqv.bind (P := Sd ff r 64 fid) (Eqv.step (hU hA) fun hu => strsmUpper_eqv dbg hcb hu hB (hs.mono hrn) (hs.mono (by omega)) (by omega) _) fun B0 hB0 => ?_
        refine Eqv.bind (onSWindow_eqv hA (by omega) (by omega) hr (by omega) le_rfl (a := r) (b := n - (rr + 64)) (by omega) (by omega) fun W hW => ?_) fun A2 hA2 => ?_
        · exact Eqv.step (hU hA) fun hu => strsmUpper_eqv dbg hcb hu hW (hs.mono hrn) (hs.mono (by omega)) (by omega) _
        · exact onSWindow_eqv hA2 hrr (by omega) hr (by omega) (by omega) (a := r) (b := 64) (by omega) (by omega) fun W hW => sliceCopy_eqv hW hB0
      · rw [if_neg h3, if_neg h3]
        refine Eqv.step (sliceSubmatrix_eq hS (by omega) hr (by omega) (by omega) (a := r) (b := n - rr) (by omega) (by omega)) fun hB => ?_
        refine Eqv.step (sliceOnes_eq hS hr hrn) fun hA => ?_
        generalize sliceSetWindow S 0 0 _ = A1 at *
        refine Eqv.bind (P := Sd ff r (n - rr) fid) (Eqv.step (hU hA) fun hu => strsmUpper_eqv dbg hcb hu hB (hs.mono hrn) (hs.mono (by omega)) (by omega) _) fun B0 hB0 => ?_
        exact onSWindow_eqv hA hrr (by omega) hr (by omega) (by omega) (a := r) (b := n - rr) (by omega) (by omega) fun W hW => sliceCopy_eqv hW hB0
    · rw [if_neg h2, if_neg h2]; exact Eqv.pure hS
  · refine onSWindow_eqv hA rfl (by omega) hr (by omega) hrn (a := r) (b := r) (by omega) (by omega) fun W hW => Eqv.pure (hW.setUi (1 : Elem ff))

theorem clearLoop_eq {i : Nat} (hi : i < m) (hin : i < n) (M : Nat → Nat → Word) :
    clearLoop m n i M = some (forN (fun j M => m4riClearBits M i j (min 64 (i - j + 1))) (i + 1) M) := by
  refine (forC_eq (fun _ _ => True) _ _ (i + 1) M trivial fun j M hj _ => ?_).1
  rw [need_eq (by omega), Option.bind_some]
  exact ⟨rfl, trivial⟩

theorem forC_slices (f : (Nat → Nat → Word) → Option (Nat → Nat → Word)) (g : (Nat → Nat → Word) → Nat → Nat → Word) (h : ∀ M, f M = some (g M)) (x : Nat → Nat → Nat → Word) :
    ∀ d, forC (fun e x => (f (x e)).bind fun M => some (setSlice x e M)) d x = some fun k => if k < d then g (x k) else x k
  | 0 => rfl
  | d + 1 => by
    show (forC _ d x).bind _ = _
    rw [forC_slices f g h x d, Option.bind_some]
    dsimp only
    rw [if_neg (Nat.lt_irrefl d), h, Option.bind_some]
    refine congrArg some ?_
    funext k
    unfold setSlice
    by_cases hk : k = d
    · subst hk; rw [if_pos rfl, if_pos (Nat.lt_succ_self k)]
    · rw [if_neg hk]
      show (if k < d then g (x k) else x k) = _
      by_cases h2 : k < d
      · rw [if_pos h2, if_pos (by omega)]
      · rw [if_neg h2, if_neg (by omega)]

theorem echPleClear_eq (hS : Sd ff m n fid S) {Q : Mzp} {r : Nat} (hr : r ≤ m) (hrn : r ≤ n) (hl : n ≤ Q.length) (hQ : ∀ i, i < n → i ≤ Q.val i ∧ Q.val i < n) :
    echPleClear S Q r = some (M4rie.echPleClear S Q.val r) ∧ Sd ff m n fid (M4rie.echPleClear S Q.val r) := by
  unfold echPleClear M4rie.echPleClear
  refine forC_eq (fun _ A => Sd ff m n fid A) _ _ r S hS fun i A hi hA => ?_
  have hc : Sd ff m n fid { A with x := fun k => if k < A.depth then forN (fun j M => m4riClearBits M i j (min 64 (i - j + 1))) (i + 1) (A.x k) else A.x k } := by
    obtain ⟨X, rfl, rfl, rfl, rfl⟩ := hA
    exact ⟨_, clearRow_spack X i, rfl, rfl, rfl⟩
  rw [forC_slices (clearLoop A.nrows A.ncols i) _ (fun M => by rw [hA.nrows_eq, hA.ncols_eq]; exact clearLoop_eq (by omega) (by omega) M), Option.bind_some]
  unfold pget
  rw [if_pos (by omega), Option.bind_some]
  exact hc.writeElem (by omega) (hQ i (by omega)).2 (1 : Elem ff)

section ech
variable (dbg : Bool) (hc : CompressOk env.compress) (hcb : env.cb.Ok ff.degree)
include hc hcb

theorem sliceEchelonizePle_eq (X : Mat ff) (hs : Sm ff X.ncols) (full : Bool) :
    sliceEchelonizePle dbg env X.spack full = mzdSliceEchelonizePle? env X.spack full := by
  unfold sliceEchelonizePle mzdSliceEchelonizePle?
  dsimp only
  rw [assert_eq (show (mzpInit X.spack.nrows).length = X.spack.nrows from rfl), Option.bind_some, assert_eq (show (mzpInit X.spack.ncols).length = X.spack.ncols from rfl),
    Option.bind_some]
  -- the last step
  have last : ∀ (A : Slice) (r : Nat), Sd ff X.nrows X.ncols X.fid A → r ≤ X.nrows →
      (if r ≠ A.nrows then onSWindow A r 0 A.nrows A.ncols fun R => some (mzdSliceSetUi R 0#64) else some A) =
      some (if r ≠ A.nrows then sliceSetWindow A r 0 (mzdSliceSetUi (mzdSliceWindow A r 0 A.nrows A.ncols) 0#64) else A) := by
    intro A r hA hr
    rw [hA.nrows_eq, hA.ncols_eq]
    by_cases h : r ≠ X.nrows
    · rw [if_pos h, if_pos h]
      exact (onSWindow_some hA (g := fun W => mzdSliceSetUi W 0#64) rfl hr le_rfl (by omega) le_rfl (a := X.nrows - r) (b := X.ncols) rfl (by omega) fun W hW => ⟨rfl, setUi_zero_sd hW⟩).1
    · rw [if_neg h, if_neg h]
  cases full with
  | false =>
    rw [if_neg (by decide), if_neg (by decide), slicePle_eq dbg hc hcb X (mzpInit X.spack.nrows) (mzpInit X.spack.ncols) hs le_rfl le_rfl]
    obtain ⟨Z, P', Q', r, e1, s1, d1, -⟩ := mzdSlicePle_spack hc hcb X (mzpInit X.spack.nrows).val (mzpInit X.spack.ncols).val
    rw [e1, lift_some, Option.bind_some, Option.map_some]
    dsimp only
    have hZ : Sd ff X.nrows X.ncols X.fid Z.spack := ⟨Z, rfl, s1.nrows, s1.ncols, s1.fid⟩
    obtain ⟨c1, c2⟩ := echPleClear_eq hZ (Q := ⟨(mzpInit X.spack.ncols).length, Q'⟩) d1.le d1.rle le_rfl d1.piv
    rw [c1, Option.bind_some, Option.bind_some, Option.map_some]
    dsimp only
    rw [last _ _ c2 d1.le, Option.bind_some]
  | true =>
    rw [if_pos rfl, if_pos rfl, slicePluq_eq dbg hc hcb X (mzpInit X.spack.nrows) (mzpInit X.spack.ncols) hs le_rfl rfl]
    obtain ⟨Z, G, P', Q', r, e1, s1, d1, -⟩ := mzdSlicePluq_spack hc hcb X (mzpInit X.spack.nrows).val (mzpInit X.spack.ncols).val
    rw [e1, lift_some, Option.bind_some, Option.bind_some]
    dsimp only
    have hG : Sd ff X.nrows X.ncols X.fid G.spack := ⟨G, rfl, s1.nrows, s1.ncols, s1.fid⟩
    obtain ⟨e2, h2⟩ := echPleSolve_eqv dbg hcb hG hs d1.le d1.rle
    rw [e2]
    cases ht : echPleSolve? env.cb G.spack r with
    | none => rfl
    | some A =>
      have hA := h2 A ht
      rw [Option.bind_some, Option.map_some, Option.map_some]
      dsimp only
      have step : (if r ≠ 0 then onSWindow A 0 0 r A.ncols fun A0 => sliceApplyPRight A0 ⟨(mzpInit X.spack.ncols).length, Q'⟩ else some A) =
          some (if r ≠ 0 then sliceSetWindow A 0 0 (mzdSliceApplyPRight (mzdSliceWindow A 0 0 r A.ncols) ⟨A.ncols, Q'⟩) else A) ∧
          Sd ff X.nrows X.ncols X.fid (if r ≠ 0 then sliceSetWindow A 0 0 (mzdSliceApplyPRight (mzdSliceWindow A 0 0 r A.ncols) ⟨A.ncols, Q'⟩) else A) := by
        rw [hA.ncols_eq]
        by_cases h0 : r ≠ 0
        · rw [if_pos h0, if_pos h0]
          exact onSWindow_some hA (g := fun W => mzdSliceApplyPRight W ⟨X.ncols, Q'⟩) rfl (by omega) d1.le (by omega) le_rfl (a := r) (b := X.ncols) (by omega) (by omega)
            fun W hW => hW.applyPRight d1.piv
        · rw [if_neg h0, if_neg h0]; exact ⟨rfl, hA⟩
      rw [step.1, Option.bind_some, Option.bind_some]
      dsimp only
      rw [last _ _ step.2 d1.le, Option.bind_some]

theorem echelonizePle_eq (X : Mat ff) (hs : Sm ff X.ncols) (full : Bool) : echelonizePle dbg env X.pack full = mzedEchelonizePle? env X.pack full := by
  have hX : Dm ff X.nrows X.ncols X.fid X.pack := ⟨X, rfl, rfl, rfl, rfl⟩
  unfold echelonizePle mzedEchelonizePle?
  rw [(sliceNew_eqv dbg hX).1, sliceNew_spack, Option.bind_some, Option.bind_some, sliceEchelonizePle_eq dbg hc hcb X.trim hs full]
  obtain ⟨R, r, e1, piv, s1, -⟩ := mzdSliceEchelonizePle_spack hc hcb X.trim full
  rw [e1, Option.bind_some, Option.bind_some]
  dsimp only
  have hR : Sd ff X.nrows X.ncols X.fid R.spack := ⟨R, rfl, s1.nrows, s1.ncols, s1.fid⟩
  rw [(cling_eqv hX hs hR).1]
  cases mzedCling? X.pack R.spack <;> rfl

theorem echelonize_eq (X : Mat ff) (hs : Sm ff X.ncols) (l2 optK : Nat) (smallNj full : Bool) (hi : X.nrows * X.ncols * degreeToW ff.degree < 2 ^ 31) :
    echelonize dbg env l2 optK smallNj X.pack full =
      mzedEchelonize? env optK smallNj (fun nr nc => decide (nr * nc * degreeToW ff.degree ≤ 2 * (l2 * 4))) X.pack full := by
  have hX : Dm ff X.nrows X.ncols X.fid X.pack := ⟨X, rfl, rfl, rfl, rfl⟩
  unfold echelonize mzedEchelonize? medium
  rw [hX.ff_eq, hX.nrows_eq, hX.ncols_eq, hX.w_eq]
  by_cases h0 : ff.degree > X.nrows
  · rw [if_pos h0, if_pos h0]; exact echelonizeNaive_eq dbg full hX hs
  rw [if_neg h0, if_neg h0, int_eq (lt_of_le_of_lt (Nat.le_mul_of_pos_right _ (okW_ff (ff := ff)).pos) hi), Option.bind_some, int_eq hi, Option.bind_some, Option.bind_some]
  by_cases h1 : decide (X.nrows * X.ncols * degreeToW ff.degree ≤ 2 * (l2 * 4)) = true
  · rw [if_pos h1, if_pos h1]; exact echelonizeNj_eq dbg hcb optK smallNj full hX hs
  · rw [if_neg h1, if_neg h1]; exact echelonizePle_eq dbg hc hcb X hs full

end ech

end M4rie.Chk
