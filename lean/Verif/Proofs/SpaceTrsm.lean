import Verif.Model.SpaceTrsm
import Verif.Proofs.SpaceElim

/-!
# Lemmas about the memory of packed triangular solving
-/

namespace M4rie
open Spec

variable {ff : Gf2e} [IsField ff]

/-- a bound for `mzed_addmul`, `m × k` times `k × n` -/
def addmulSpace (e m k n : Nat) : Nat :=
  max ((e + 1) * (gf2Words m n + gf2Words m k + gf2Words k n))
    (max (packedWords (degreeToW e) m n) ((packedWords (degreeToW e) m k + packedWords (degreeToW e) k n + packedWords (degreeToW e) m n) / 3) + 8 * tableWords e (degreeToW e) n)

theorem addmul_gives (env : MulEnv) {A B C : Mat ff} (h1 : C.nrows = A.nrows) (h2 : C.ncols = B.ncols) (h3 : A.ncols = B.nrows) (h4 : A.fid = B.fid) (h5 : C.fid = A.fid) :
    Gives (mzedAddmulT env C.pack A.pack B.pack) (mzedAddmul? env C.pack A.pack B.pack) (addmulSpace ff.degree A.nrows A.ncols B.ncols) := by
  have hw := okW_ff (ff := ff)
  obtain ⟨l, l', -, t, c1, c2⟩ := Props.mulTop_traces (env := env) (pack_rep A) (pack_rep B) (pack_rep C) ⟨h3, h4, h5, h1, h2⟩
  have e1 : A.pack.nrows = A.nrows := rfl
  have e2 : A.pack.ncols = A.ncols := rfl
  have e3 : B.pack.ncols = B.ncols := rfl
  rw [e1, e2, e3] at c1 c2
  by_cases hs : 512 ≤ A.nrows ∧ 512 ≤ A.ncols ∧ 512 ≤ B.ncols
  · obtain ⟨-, rfl⟩ := c1 hs
    obtain ⟨s1, s2⟩ := Props.mulKaraTrace_size ff.degree A.nrows A.ncols B.ncols
    refine ⟨_, t, s1, ?_⟩
    rw [s2]
    refine Int.ofNat_le.2 (le_trans ?_ (le_max_left _ _))
    unfold slicedWords
    rw [Nat.succ_mul, Nat.mul_add, Nat.mul_add]
    split_ifs <;> omega
  · obtain ⟨cutoff, fuel, -, rfl⟩ := c2 hs
    obtain ⟨t1, t2⟩ := addmulTrace_size ff.degree hw cutoff fuel A.nrows A.ncols B.ncols
    refine ⟨_, t, t1, ?_⟩
    refine le_trans ?_ (Int.ofNat_le.2 (le_max_right _ _))
    push_cast at t2 ⊢
    omega

/-- a bound for `_mzed_trsm_lower_left`, `n` rows and `m` columns -/
def packedTrsmSpace (e n m : Nat) : Nat :=
  max ((e + 1) * (gf2Words n m + gf2Words n n))
    (max (packedWords (degreeToW e) n m) ((packedWords (degreeToW e) n n + packedWords (degreeToW e) n m) / 3) + 8 * tableWords e (degreeToW e) m)

theorem packedTrsmSpace_mono {e n n' m : Nat} (h : n ≤ n') : packedTrsmSpace e n m ≤ packedTrsmSpace e n' m := by
  unfold packedTrsmSpace
  have h1 := packedWords_mono (w := degreeToW e) h (le_refl m)
  have h2 := packedWords_mono (w := degreeToW e) h h
  have h3 := Nat.mul_le_mul_left (e + 1) (Nat.add_le_add (gf2Words_mono h (le_refl m)) (gf2Words_mono h h))
  omega

theorem addmul_in_trsm {e a b n m : Nat} (h : a + b = n) : addmulSpace e a b m ≤ packedTrsmSpace e n m := by
  subst h
  unfold addmulSpace packedTrsmSpace
  have h1 := packedWords_add (degreeToW e) a b m
  have h2 := packedWords_mono (w := degreeToW e) (show a ≤ a + b by omega) (show b ≤ a + b by omega)
  have h3 : (e + 1) * (gf2Words a m + gf2Words a b + gf2Words b m) ≤ (e + 1) * (gf2Words (a + b) m + gf2Words (a + b) (a + b)) := by
    apply Nat.mul_le_mul_left
    have h4 := gf2Words_add a b m
    have h5 := gf2Words_mono (show a ≤ a + b by omega) (show b ≤ a + b by omega)
    omega
  omega

theorem packedOpsWindow_gives (env : MulEnv) (A : Mzed) (lr lc hr hc : Nat) {F : Mzed × List Event → Option (Mzed × List Event)} {g : Mzed → Option Mzed} {p : Nat}
    (h : Gives (fun s => F (mzedWindow A lr lc hr hc, s)) (g (mzedWindow A lr lc hr hc)) p) :
    Gives (fun s => (mzedTrsmOpsT env).onWindow (A, s) lr lc hr hc F) (onWindow A lr lc hr hc g) p := by
  obtain ⟨l, h1, h2, h3⟩ := h
  refine ⟨l, fun s => ?_, h2, h3⟩
  show (F (mzedWindow A lr lc hr hc, s)).map _ = (Option.map _ (g _)).map _
  have := h1 s
  dsimp only at this
  rw [this, Option.map_map, Option.map_map]
  rfl

/-- the trace of solving directly -/
def packedSolveTrace (e n m : Nat) : List Event :=
  if n ≤ 2 ^ e then [] else tblGet e (degreeToW e) m ++ tblPut e (degreeToW e) m

theorem packedSolveTrace_size (e n m : Nat) : inUse (packedSolveTrace e n m) = 0 ∧
    peak (packedSolveTrace e n m) = ((if n ≤ 2 ^ e then 0 else tableWords e (degreeToW e) m : Nat) : Int) := by
  unfold packedSolveTrace
  split_ifs
  · exact ⟨rfl, rfl⟩
  · exact tbl_size e (degreeToW e) m

theorem packedSolveTrace_le (e n m : Nat) : peak (packedSolveTrace e n m) ≤ packedTrsmSpace e n m := by
  rw [(packedSolveTrace_size e n m).2]
  unfold packedTrsmSpace
  split_ifs <;> omega

omit [IsField ff] in
theorem packedLowerLeaf_traces (cb : Codebook) (L B : Mat ff) (h : L.nrows = B.nrows) :
    Traces (mzedTrsmLowerLeftNewtonJohnT cb L.pack B.pack) (some (mzedTrsmLowerLeftNewtonJohn cb L.pack B.pack)) (packedSolveTrace ff.degree B.nrows B.ncols) := by
  unfold mzedTrsmLowerLeftNewtonJohnT packedSolveTrace
  have e1 : L.pack.nrows = B.nrows := h
  have e2 : L.pack.ff = ff := rfl
  rw [e1, e2]
  by_cases c : B.nrows ≤ 2 ^ ff.degree
  · rw [if_pos c, if_pos c]
    have : mzedTrsmLowerLeftNewtonJohn cb L.pack B.pack = mzedTrsmLowerLeftNaive L.pack B.pack := if_pos (by rw [e1, e2]; exact c)
    rw [this]
    exact traces_pure _
  · rw [if_neg c, if_neg c]
    exact traces_before (njtInit_traces _ _) (Traces.congr (traces_before (njtFree_traces _ _) (traces_pure _)) (List.append_nil _))

omit [IsField ff] in
theorem packedUpperLeaf_traces (cb : Codebook) (L B : Mat ff) (h : L.nrows = B.nrows) :
    Traces (mzedTrsmUpperLeftNewtonJohnT cb L.pack B.pack) (some (mzedTrsmUpperLeftNewtonJohn cb L.pack B.pack)) (packedSolveTrace ff.degree B.nrows B.ncols) := by
  unfold mzedTrsmUpperLeftNewtonJohnT packedSolveTrace
  have e1 : L.pack.nrows = B.nrows := h
  have e2 : L.pack.ff = ff := rfl
  rw [e1, e2]
  by_cases c : B.nrows ≤ 2 ^ ff.degree
  · rw [if_pos c, if_pos c]
    have : mzedTrsmUpperLeftNewtonJohn cb L.pack B.pack = mzedTrsmUpperLeftNaive L.pack B.pack := if_pos (by rw [e1, e2]; exact c)
    rw [this]
    exact traces_pure _
  · rw [if_neg c, if_neg c]
    exact traces_before (njtInit_traces _ _) (Traces.congr (traces_before (njtFree_traces _ _) (traces_pure _)) (List.append_nil _))

section
variable {env : MulEnv} (henv : env.Ok ff.degree) {cutoff : Int} (hcut : 64 ≤ cutoff)
include henv hcut

theorem packedLowerF_gives : ∀ fuel (L : Mat ff) (t : List Event) (B : Mat ff), B.nrows < fuel → L.nrows = B.nrows → L.ncols = B.nrows → L.fid = B.fid → 0 < B.ncols →
    (∀ i, i < B.nrows → L.e i i ≠ 0) →
    Gives (fun s => trsmLowerF (mzedTrsmOpsT env) cutoff fuel (L.pack, t) (B.pack, s)) (trsmLowerF (mzedTrsmOps env) cutoff fuel L.pack B.pack)
      (packedTrsmSpace ff.degree B.nrows B.ncols)
  | 0, _, _, _, h, _, _, _, _, _ => absurd h (by omega)
  | fuel + 1, L, t, B, hf, hr, hc, hid, hn, hd => by
    have hops := mzedTrsmLaws (ff := ff) henv
    have E1 : ∀ s, trsmLowerF (mzedTrsmOpsT env) cutoff (fuel + 1) (L.pack, t) (B.pack, s) = if (L.nrows : Int) ≤ cutoff ∨ (B.ncols : Int) ≤ cutoff then
        mzedTrsmLowerLeftNewtonJohnT env.cb L.pack B.pack s else if B.nrows < trsmSplit L.nrows then none else
        ((mzedTrsmOpsT env).onWindow (B.pack, s) 0 0 (trsmSplit L.nrows) B.ncols fun B0 =>
          trsmLowerF (mzedTrsmOpsT env) cutoff fuel (mzedWindow L.pack 0 0 (trsmSplit L.nrows) (trsmSplit L.nrows), []) B0).bind fun B' =>
        ((mzedTrsmOpsT env).onWindow B' (trsmSplit L.nrows) 0 B.nrows B.ncols fun B1 => mzedAddmulT env B1.1
          (mzedWindow L.pack (trsmSplit L.nrows) 0 B.nrows (trsmSplit L.nrows)) (mzedWindow B'.1 0 0 (trsmSplit L.nrows) B.ncols) B1.2).bind fun B' =>
        (mzedTrsmOpsT env).onWindow B' (trsmSplit L.nrows) 0 B.nrows B.ncols fun B1 =>
          trsmLowerF (mzedTrsmOpsT env) cutoff fuel (mzedWindow L.pack (trsmSplit L.nrows) (trsmSplit L.nrows) B.nrows B.nrows, []) B1 := fun s => rfl
    have E2 : trsmLowerF (mzedTrsmOps env) cutoff (fuel + 1) L.pack B.pack = if (L.nrows : Int) ≤ cutoff ∨ (B.ncols : Int) ≤ cutoff then
        some (mzedTrsmLowerLeftNewtonJohn env.cb L.pack B.pack) else if B.nrows < trsmSplit L.nrows then none else
        (onWindow B.pack 0 0 (trsmSplit L.nrows) B.ncols fun B0 =>
          trsmLowerF (mzedTrsmOps env) cutoff fuel (mzedWindow L.pack 0 0 (trsmSplit L.nrows) (trsmSplit L.nrows)) B0).bind fun B' =>
        (onWindow B' (trsmSplit L.nrows) 0 B.nrows B.ncols fun B1 => mzedAddmul? env B1
          (mzedWindow L.pack (trsmSplit L.nrows) 0 B.nrows (trsmSplit L.nrows)) (mzedWindow B' 0 0 (trsmSplit L.nrows) B.ncols)).bind fun B' =>
        onWindow B' (trsmSplit L.nrows) 0 B.nrows B.ncols fun B1 =>
          trsmLowerF (mzedTrsmOps env) cutoff fuel (mzedWindow L.pack (trsmSplit L.nrows) (trsmSplit L.nrows) B.nrows B.nrows) B1 := rfl
    simp only [E1, E2]
    by_cases hb : (L.nrows : Int) ≤ cutoff ∨ (B.ncols : Int) ≤ cutoff
    · simp only [if_pos hb]
      exact ⟨_, packedLowerLeaf_traces env.cb L B hr, (packedSolveTrace_size _ _ _).1, packedSolveTrace_le _ _ _⟩
    simp only [if_neg hb]
    have hs := trsmSplit_spec (n := L.nrows) (by omega)
    generalize trsmSplit L.nrows = c at *
    have hc' : ¬ B.nrows < c := by omega
    simp only [if_neg hc']
    have wz : ∀ (X : Mat ff) lr lc hr hc, lc % 64 = 0 → mzedWindow X.pack lr lc hr hc = (X.window lr lc hr hc).pack := fun X lr lc hr hc h => hops.window X lr lc hr hc h
    have d0 : ∀ i, i < (B.window 0 0 c B.ncols).nrows → (L.window 0 0 c c).e i i ≠ 0 := fun i hi => by
      simp at hi; simpa [Mat.window] using hd i (by omega)
    obtain ⟨X0, r0, -⟩ := trsmLowerF_pk hops hcut fuel (L.window 0 0 c c) (B.window 0 0 c B.ncols) (by simp; omega) (by simp) (by simp) hid (by simpa using hn) d0
    have o0 : onWindow B.pack 0 0 c B.ncols (fun B0 => trsmLowerF (mzedTrsmOps env) cutoff fuel (mzedWindow L.pack 0 0 c c) B0) = some (B.unwindow 0 0 X0).pack :=
      hops.onWindow B 0 0 c B.ncols _ X0 rfl (by rw [wz L 0 0 c c rfl]; exact r0)
    have g0 : Gives (fun s => trsmLowerF (mzedTrsmOpsT env) cutoff fuel (mzedWindow L.pack 0 0 c c, []) (mzedWindow B.pack 0 0 c B.ncols, s))
        (trsmLowerF (mzedTrsmOps env) cutoff fuel (mzedWindow L.pack 0 0 c c) (mzedWindow B.pack 0 0 c B.ncols)) (packedTrsmSpace ff.degree B.nrows B.ncols) := by
      rw [wz L 0 0 c c rfl, wz B 0 0 c _ rfl]
      exact (packedLowerF_gives fuel (L.window 0 0 c c) [] (B.window 0 0 c B.ncols) (by simp; omega) (by simp) (by simp) hid (by simpa using hn) d0).mono
        (packedTrsmSpace_mono (show c - 0 ≤ B.nrows by omega))
    refine Gives.seq (F := fun B' => ((mzedTrsmOpsT env).onWindow B' c 0 B.nrows B.ncols fun B1 => mzedAddmulT env B1.1
          (mzedWindow L.pack c 0 B.nrows c) (mzedWindow B'.1 0 0 c B.ncols) B1.2).bind fun B' =>
        (mzedTrsmOpsT env).onWindow B' c 0 B.nrows B.ncols fun B1 => trsmLowerF (mzedTrsmOpsT env) cutoff fuel (mzedWindow L.pack c c B.nrows B.nrows, []) B1)
      (packedOpsWindow_gives env B.pack 0 0 c B.ncols g0) fun B' hB' => ?_
    obtain rfl := Option.some.inj (o0.symm.trans hB')
    generalize hY : B.unwindow 0 0 X0 = Y
    have yr : Y.nrows = B.nrows := by rw [← hY]; rfl
    have yc : Y.ncols = B.ncols := by rw [← hY]; rfl
    have yf : Y.fid = B.fid := by rw [← hY]; rfl
    have o1 : onWindow Y.pack c 0 B.nrows B.ncols (fun B1 => mzedAddmul? env B1 (mzedWindow L.pack c 0 B.nrows c) (mzedWindow Y.pack 0 0 c B.ncols)) =
        some (Y.unwindow c 0 ((Y.window c 0 B.nrows B.ncols).addMulM (L.window c 0 B.nrows c) (Y.window 0 0 c B.ncols))).pack :=
      hops.onWindow Y c 0 B.nrows B.ncols (fun B1 => mzedAddmul? env B1 (mzedWindow L.pack c 0 B.nrows c) (mzedWindow Y.pack 0 0 c B.ncols))
        ((Y.window c 0 B.nrows B.ncols).addMulM (L.window c 0 B.nrows c) (Y.window 0 0 c B.ncols)) rfl (by
        rw [wz L c 0 _ _ rfl, wz Y 0 0 _ _ rfl]
        exact hops.addmul _ _ _ (by simp) (by simp) (by simp) (hid.trans yf.symm) (yf.trans hid.symm) (by simpa using hn))
    have g1 : Gives (mzedAddmulT env (mzedWindow Y.pack c 0 B.nrows B.ncols) (mzedWindow L.pack c 0 B.nrows c) (mzedWindow Y.pack 0 0 c B.ncols))
        (mzedAddmul? env (mzedWindow Y.pack c 0 B.nrows B.ncols) (mzedWindow L.pack c 0 B.nrows c) (mzedWindow Y.pack 0 0 c B.ncols))
        (packedTrsmSpace ff.degree B.nrows B.ncols) := by
      rw [wz Y c 0 _ _ rfl, wz L c 0 _ _ rfl, wz Y 0 0 _ _ rfl]
      refine (addmul_gives env (A := L.window c 0 B.nrows c) (B := Y.window 0 0 c B.ncols) (C := Y.window c 0 B.nrows B.ncols) (by simp) (by simp) (by simp) (hid.trans yf.symm)
        (yf.trans hid.symm)).mono ?_
      simp only [Mat.window_nrows, Mat.window_ncols, Nat.sub_zero]
      exact addmul_in_trsm (by omega)
    refine Gives.seq (F := fun B' => (mzedTrsmOpsT env).onWindow B' c 0 B.nrows B.ncols fun B1 =>
        trsmLowerF (mzedTrsmOpsT env) cutoff fuel (mzedWindow L.pack c c B.nrows B.nrows, []) B1)
      (packedOpsWindow_gives env Y.pack c 0 B.nrows B.ncols (F := fun B1 => mzedAddmulT env B1.1 (mzedWindow L.pack c 0 B.nrows c) (mzedWindow Y.pack 0 0 c B.ncols) B1.2)
        (g := fun B1 => mzedAddmul? env B1 (mzedWindow L.pack c 0 B.nrows c) (mzedWindow Y.pack 0 0 c B.ncols)) g1) fun B2 hB2 => ?_
    obtain rfl := Option.some.inj (o1.symm.trans hB2)
    generalize hZ : Y.unwindow c 0 ((Y.window c 0 B.nrows B.ncols).addMulM (L.window c 0 B.nrows c) (Y.window 0 0 c B.ncols)) = Z
    have zf : Z.fid = B.fid := by rw [← hZ]; exact yf
    have g2 : Gives (fun s => trsmLowerF (mzedTrsmOpsT env) cutoff fuel (mzedWindow L.pack c c B.nrows B.nrows, []) (mzedWindow Z.pack c 0 B.nrows B.ncols, s))
        (trsmLowerF (mzedTrsmOps env) cutoff fuel (mzedWindow L.pack c c B.nrows B.nrows) (mzedWindow Z.pack c 0 B.nrows B.ncols))
        (packedTrsmSpace ff.degree B.nrows B.ncols) := by
      rw [wz L c c _ _ hs.1, wz Z c 0 _ _ rfl]
      exact (packedLowerF_gives fuel (L.window c c B.nrows B.nrows) [] (Z.window c 0 B.nrows B.ncols) (by simp; omega) (by simp) (by simp) (hid.trans zf.symm) (by simpa using hn)
        (fun i hi => by simp at hi; simpa [Mat.window] using hd (c + i) (by omega))).mono (packedTrsmSpace_mono (show B.nrows - c ≤ B.nrows by omega))
    exact packedOpsWindow_gives env Z.pack c 0 B.nrows B.ncols g2

theorem packedUpperF_gives : ∀ fuel (L : Mat ff) (t : List Event) (B : Mat ff), B.nrows < fuel → L.nrows = B.nrows → L.ncols = B.nrows → L.fid = B.fid → 0 < B.ncols →
    (∀ i, i < B.nrows → L.e i i ≠ 0) →
    Gives (fun s => trsmUpperF (mzedTrsmOpsT env) cutoff fuel (L.pack, t) (B.pack, s)) (trsmUpperF (mzedTrsmOps env) cutoff fuel L.pack B.pack)
      (packedTrsmSpace ff.degree B.nrows B.ncols)
  | 0, _, _, _, h, _, _, _, _, _ => absurd h (by omega)
  | fuel + 1, L, t, B, hf, hr, hc, hid, hn, hd => by
    have hops := mzedTrsmLaws (ff := ff) henv
    have E1 : ∀ s, trsmUpperF (mzedTrsmOpsT env) cutoff (fuel + 1) (L.pack, t) (B.pack, s) = if (L.nrows : Int) ≤ cutoff ∨ (B.ncols : Int) ≤ cutoff then
        mzedTrsmUpperLeftNewtonJohnT env.cb L.pack B.pack s else if B.nrows < trsmSplit L.nrows then none else
        ((mzedTrsmOpsT env).onWindow (B.pack, s) (trsmSplit L.nrows) 0 B.nrows B.ncols fun B1 =>
          trsmUpperF (mzedTrsmOpsT env) cutoff fuel (mzedWindow L.pack (trsmSplit L.nrows) (trsmSplit L.nrows) B.nrows B.nrows, []) B1).bind fun B' =>
        ((mzedTrsmOpsT env).onWindow B' 0 0 (trsmSplit L.nrows) B.ncols fun B0 => mzedAddmulT env B0.1
          (mzedWindow L.pack 0 (trsmSplit L.nrows) (trsmSplit L.nrows) B.nrows) (mzedWindow B'.1 (trsmSplit L.nrows) 0 B.nrows B.ncols) B0.2).bind fun B' =>
        (mzedTrsmOpsT env).onWindow B' 0 0 (trsmSplit L.nrows) B.ncols fun B0 =>
          trsmUpperF (mzedTrsmOpsT env) cutoff fuel (mzedWindow L.pack 0 0 (trsmSplit L.nrows) (trsmSplit L.nrows), []) B0 := fun s => rfl
    have E2 : trsmUpperF (mzedTrsmOps env) cutoff (fuel + 1) L.pack B.pack = if (L.nrows : Int) ≤ cutoff ∨ (B.ncols : Int) ≤ cutoff then
        some (mzedTrsmUpperLeftNewtonJohn env.cb L.pack B.pack) else if B.nrows < trsmSplit L.nrows then none else
        (onWindow B.pack (trsmSplit L.nrows) 0 B.nrows B.ncols fun B1 =>
          trsmUpperF (mzedTrsmOps env) cutoff fuel (mzedWindow L.pack (trsmSplit L.nrows) (trsmSplit L.nrows) B.nrows B.nrows) B1).bind fun B' =>
        (onWindow B' 0 0 (trsmSplit L.nrows) B.ncols fun B0 => mzedAddmul? env B0
          (mzedWindow L.pack 0 (trsmSplit L.nrows) (trsmSplit L.nrows) B.nrows) (mzedWindow B' (trsmSplit L.nrows) 0 B.nrows B.ncols)).bind fun B' =>
        onWindow B' 0 0 (trsmSplit L.nrows) B.ncols fun B0 =>
          trsmUpperF (mzedTrsmOps env) cutoff fuel (mzedWindow L.pack 0 0 (trsmSplit L.nrows) (trsmSplit L.nrows)) B0 := rfl
    simp only [E1, E2]
    by_cases hb : (L.nrows : Int) ≤ cutoff ∨ (B.ncols : Int) ≤ cutoff
    · simp only [if_pos hb]
      exact ⟨_, packedUpperLeaf_traces env.cb L B hr, (packedSolveTrace_size _ _ _).1, packedSolveTrace_le _ _ _⟩
    simp only [if_neg hb]
    have hs := trsmSplit_spec (n := L.nrows) (by omega)
    generalize trsmSplit L.nrows = c at *
    have hc' : ¬ B.nrows < c := by omega
    simp only [if_neg hc']
    have wz : ∀ (X : Mat ff) lr lc hr hc, lc % 64 = 0 → mzedWindow X.pack lr lc hr hc = (X.window lr lc hr hc).pack := fun X lr lc hr hc h => hops.window X lr lc hr hc h
    have d0 : ∀ i, i < (B.window c 0 B.nrows B.ncols).nrows → (L.window c c B.nrows B.nrows).e i i ≠ 0 := fun i hi => by
      simp at hi; simpa [Mat.window] using hd (c + i) (by omega)
    obtain ⟨X0, r0, -⟩ := trsmUpperF_pk hops hcut fuel (L.window c c B.nrows B.nrows) (B.window c 0 B.nrows B.ncols) (by simp; omega) (by simp) (by simp) hid (by simpa using hn) d0
    have o0 : onWindow B.pack c 0 B.nrows B.ncols (fun B1 => trsmUpperF (mzedTrsmOps env) cutoff fuel (mzedWindow L.pack c c B.nrows B.nrows) B1) =
        some (B.unwindow c 0 X0).pack :=
      hops.onWindow B c 0 B.nrows B.ncols _ X0 rfl (by rw [wz L c c _ _ hs.1]; exact r0)
    have g0 : Gives (fun s => trsmUpperF (mzedTrsmOpsT env) cutoff fuel (mzedWindow L.pack c c B.nrows B.nrows, []) (mzedWindow B.pack c 0 B.nrows B.ncols, s))
        (trsmUpperF (mzedTrsmOps env) cutoff fuel (mzedWindow L.pack c c B.nrows B.nrows) (mzedWindow B.pack c 0 B.nrows B.ncols)) (packedTrsmSpace ff.degree B.nrows B.ncols) := by
      rw [wz L c c _ _ hs.1, wz B c 0 _ _ rfl]
      exact (packedUpperF_gives fuel (L.window c c B.nrows B.nrows) [] (B.window c 0 B.nrows B.ncols) (by simp; omega) (by simp) (by simp) hid (by simpa using hn) d0).mono
        (packedTrsmSpace_mono (show B.nrows - c ≤ B.nrows by omega))
    refine Gives.seq (F := fun B' => ((mzedTrsmOpsT env).onWindow B' 0 0 c B.ncols fun B0 => mzedAddmulT env B0.1
          (mzedWindow L.pack 0 c c B.nrows) (mzedWindow B'.1 c 0 B.nrows B.ncols) B0.2).bind fun B' =>
        (mzedTrsmOpsT env).onWindow B' 0 0 c B.ncols fun B0 => trsmUpperF (mzedTrsmOpsT env) cutoff fuel (mzedWindow L.pack 0 0 c c, []) B0)
      (packedOpsWindow_gives env B.pack c 0 B.nrows B.ncols g0) fun B' hB' => ?_
    obtain rfl := Option.some.inj (o0.symm.trans hB')
    generalize hY : B.unwindow c 0 X0 = Y
    have yr : Y.nrows = B.nrows := by rw [← hY]; rfl
    have yc : Y.ncols = B.ncols := by rw [← hY]; rfl
    have yf : Y.fid = B.fid := by rw [← hY]; rfl
    have o1 : onWindow Y.pack 0 0 c B.ncols (fun B0 => mzedAddmul? env B0 (mzedWindow L.pack 0 c c B.nrows) (mzedWindow Y.pack c 0 B.nrows B.ncols)) =
        some (Y.unwindow 0 0 ((Y.window 0 0 c B.ncols).addMulM (L.window 0 c c B.nrows) (Y.window c 0 B.nrows B.ncols))).pack :=
      hops.onWindow Y 0 0 c B.ncols (fun B0 => mzedAddmul? env B0 (mzedWindow L.pack 0 c c B.nrows) (mzedWindow Y.pack c 0 B.nrows B.ncols))
        ((Y.window 0 0 c B.ncols).addMulM (L.window 0 c c B.nrows) (Y.window c 0 B.nrows B.ncols)) rfl (by
        rw [wz L 0 c _ _ hs.1, wz Y c 0 _ _ rfl]
        exact hops.addmul _ _ _ (by simp) (by simp) (by simp) (hid.trans yf.symm) (yf.trans hid.symm) (by simpa using hn))
    have g1 : Gives (mzedAddmulT env (mzedWindow Y.pack 0 0 c B.ncols) (mzedWindow L.pack 0 c c B.nrows) (mzedWindow Y.pack c 0 B.nrows B.ncols))
        (mzedAddmul? env (mzedWindow Y.pack 0 0 c B.ncols) (mzedWindow L.pack 0 c c B.nrows) (mzedWindow Y.pack c 0 B.nrows B.ncols))
        (packedTrsmSpace ff.degree B.nrows B.ncols) := by
      rw [wz Y 0 0 _ _ rfl, wz L 0 c _ _ hs.1, wz Y c 0 _ _ rfl]
      refine (addmul_gives env (A := L.window 0 c c B.nrows) (B := Y.window c 0 B.nrows B.ncols) (C := Y.window 0 0 c B.ncols) (by simp) (by simp) (by simp) (hid.trans yf.symm)
        (yf.trans hid.symm)).mono ?_
      simp only [Mat.window_nrows, Mat.window_ncols, Nat.sub_zero]
      exact addmul_in_trsm (by omega)
    refine Gives.seq (F := fun B' => (mzedTrsmOpsT env).onWindow B' 0 0 c B.ncols fun B0 =>
        trsmUpperF (mzedTrsmOpsT env) cutoff fuel (mzedWindow L.pack 0 0 c c, []) B0)
      (packedOpsWindow_gives env Y.pack 0 0 c B.ncols (F := fun B0 => mzedAddmulT env B0.1 (mzedWindow L.pack 0 c c B.nrows) (mzedWindow Y.pack c 0 B.nrows B.ncols) B0.2)
        (g := fun B0 => mzedAddmul? env B0 (mzedWindow L.pack 0 c c B.nrows) (mzedWindow Y.pack c 0 B.nrows B.ncols)) g1) fun B2 hB2 => ?_
    obtain rfl := Option.some.inj (o1.symm.trans hB2)
    generalize hZ : Y.unwindow 0 0 ((Y.window 0 0 c B.ncols).addMulM (L.window 0 c c B.nrows) (Y.window c 0 B.nrows B.ncols)) = Z
    have zf : Z.fid = B.fid := by rw [← hZ]; exact yf
    have g2 : Gives (fun s => trsmUpperF (mzedTrsmOpsT env) cutoff fuel (mzedWindow L.pack 0 0 c c, []) (mzedWindow Z.pack 0 0 c B.ncols, s))
        (trsmUpperF (mzedTrsmOps env) cutoff fuel (mzedWindow L.pack 0 0 c c) (mzedWindow Z.pack 0 0 c B.ncols))
        (packedTrsmSpace ff.degree B.nrows B.ncols) := by
      rw [wz L 0 0 _ _ rfl, wz Z 0 0 _ _ rfl]
      exact (packedUpperF_gives fuel (L.window 0 0 c c) [] (Z.window 0 0 c B.ncols) (by simp; omega) (by simp) (by simp) (hid.trans zf.symm) (by simpa using hn)
        (fun i hi => by simp at hi; simpa [Mat.window] using hd i (by omega))).mono (packedTrsmSpace_mono (show c - 0 ≤ B.nrows by omega))
    exact packedOpsWindow_gives env Z.pack 0 0 c B.ncols g2

end

end M4rie
