import Verif.Model.SpaceElim
import Verif.Props.Space
import Verif.Proofs.CostPle

/-! # Memory of solving, decomposition and elimination: proofs -/

namespace M4rie
open Spec

variable {α β : Type}

/-- `x` is a version with a trace of `o` that gives back what it takes and never takes more than `p` words -/
def Gives (x : Traced α) (o : Option α) (p : Nat) : Prop := ∃ l, Traces x o l ∧ inUse l = 0 ∧ peak l ≤ p

theorem Gives.mono {x : Traced α} {o : Option α} {p q : Nat} (h : Gives x o p) (hpq : p ≤ q) : Gives x o q := by
  obtain ⟨l, h1, h2, h3⟩ := h
  exact ⟨l, h1, h2, h3.trans (by exact_mod_cast hpq)⟩

theorem gives_inPlace (o : Option α) (p : Nat) : Gives (inPlace o) o p := ⟨[], traces_inPlace o, rfl, Int.natCast_nonneg p⟩

theorem gives_pure (a : α) (p : Nat) : Gives (pure a) (some a) p := ⟨[], traces_pure a, rfl, Int.natCast_nonneg p⟩

theorem Gives.bind {x : Traced α} {o : Option α} {p : Nat} {f : α → Traced β} {g : α → Option β} (hx : Gives x o p)
    (hf : ∀ a, o = some a → Gives (f a) (g a) p) : Gives (x >>= f) (o.bind g) p := by
  obtain ⟨l, h1, h2, h3⟩ := hx
  cases o with
  | none =>
    refine ⟨l, ?_, h2, h3⟩
    have := traces_bind (l' := []) (f := f) (g := g) h1 fun a ha => nomatch ha
    rwa [List.append_nil] at this
  | some a =>
    obtain ⟨l', h4, h5, h6⟩ := hf a rfl
    refine ⟨l ++ l', traces_bind h1 fun b hb => by cases hb; exact h4, by rw [inUse_append, h2, h5]; rfl, ?_⟩
    rw [peak_append, h2]
    omega

/-- the same for functions of the trace -/
theorem Gives.seq {x : Traced α} {o : Option α} {p : Nat} {F : α × List Event → Option (β × List Event)} {g : α → Option β} (hx : Gives x o p)
    (hf : ∀ a, o = some a → Gives (fun s => F (a, s)) (g a) p) : Gives (fun s => (x s).bind F) (o.bind g) p :=
  Gives.bind (f := fun a s => F (a, s)) hx hf

/-- something held during a computation and released afterwards -/
theorem hold_size {l : List Event} (h : inUse l = 0) (n : Nat) : inUse ([.get n] ++ (l ++ [.put n])) = 0 ∧ peak ([.get n] ++ (l ++ [.put n])) = n + peak l := by
  have := peak_nonneg l
  constructor
  · simp only [inUse_append, h]
    show (n : Int) + 0 + (0 + (-(n : Int) + 0)) = 0
    omega
  · have e1 : inUse [Event.get n] = n := by show (n : Int) + 0 = n; omega
    have e2 : peak [Event.get n] = n := by show max 0 ((n : Int) + 0) = n; omega
    have e3 : peak [Event.put n] = 0 := by show max 0 (-(n : Int) + 0) = 0; omega
    rw [peak_append, peak_append, e1, e2, e3, h]
    omega

/-! ### Sizes -/

theorem degreeToW_pos (ff : Gf2e) [IsField ff] : 1 ≤ degreeToW ff.degree := by
  rcases okW_ff (ff := ff) with h | h | h | h <;> omega

theorem gf2Words_le (w : Nat) (hw : 1 ≤ w) (m n : Nat) : gf2Words m n ≤ packedWords w m n :=
  Nat.mul_le_mul_left _ (Nat.div_le_div_right (by have := Nat.le_mul_of_pos_left n hw; omega))

theorem gf2Words_mono {m m' n n' : Nat} (hm : m ≤ m') (hn : n ≤ n') : gf2Words m n ≤ gf2Words m' n' :=
  Nat.mul_le_mul hm (Nat.div_le_div_right (by omega))

theorem packedWords_add (w m m' n : Nat) : packedWords w (m + m') n = packedWords w m n + packedWords w m' n := Nat.add_mul _ _ _

theorem gf2Words_add (m m' n : Nat) : gf2Words (m + m') n = gf2Words m n + gf2Words m' n := Nat.add_mul _ _ _

/-- words side by side -/
theorem packedWords_beside {w m n1 k : Nat} (h : n1 % 64 = 0) : packedWords w m (n1 + k) = packedWords w m n1 + packedWords w m k := by
  obtain ⟨q, rfl⟩ : ∃ q, n1 = 64 * q := ⟨n1 / 64, by omega⟩
  unfold packedWords
  rw [← Nat.mul_add]
  congr 1
  have : w * (64 * q + k) = 64 * (w * q) + w * k := by ring
  have e2 : w * (64 * q) = 64 * (w * q) := by ring
  rw [this, e2]
  omega

/-! ### Solving -/

/-- what solving with an `n × n` matrix and `m` right hand sides takes -/
def trsmSpace (e n m : Nat) : Nat :=
  packedWords (degreeToW e) n m + max (packedWords (degreeToW e) n n) (tableWords e (degreeToW e) m)

theorem trsmSpace_mono {e n n' m : Nat} (h : n ≤ n') : trsmSpace e n m ≤ trsmSpace e n' m := by
  unfold trsmSpace
  have h1 := packedWords_mono (w := degreeToW e) h (le_refl m)
  have h2 := packedWords_mono (w := degreeToW e) h h
  omega

/-- the trace of solving directly -/
def sliceSolveTrace (e n m : Nat) : List Event :=
  if 2 ^ e ≥ n then [.get (packedWords (degreeToW e) n n), .get (packedWords (degreeToW e) n m), .put (packedWords (degreeToW e) n n), .put (packedWords (degreeToW e) n m)]
  else [.get (packedWords (degreeToW e) n m)] ++ (tblGet e (degreeToW e) m ++ ([.put (packedWords (degreeToW e) n m)] ++ tblPut e (degreeToW e) m))

theorem sliceSolveTrace_size (e n m : Nat) : inUse (sliceSolveTrace e n m) = 0 ∧
    peak (sliceSolveTrace e n m) = ((packedWords (degreeToW e) n m + if n ≤ 2 ^ e then packedWords (degreeToW e) n n else tableWords e (degreeToW e) m : Nat) : Int) := by
  unfold sliceSolveTrace
  have key : ∀ a b : Nat, inUse [.get a, .get b, .put a, .put b] = 0 ∧ peak [.get a, .get b, .put a, .put b] = ((b + a : Nat) : Int) := by
    intro a b
    simp only [inUse, peak, Event.delta, List.map_cons, List.map_nil, List.sum_cons, List.sum_nil]
    omega
  have key2 : ∀ a x y z : Nat, inUse [.get a, .get x, .get y, .get z, .put a, .put z, .put y, .put x] = 0 ∧
      peak [.get a, .get x, .get y, .get z, .put a, .put z, .put y, .put x] = ((a + (x + y + z) : Nat) : Int) := by
    intro a x y z
    simp only [inUse, peak, Event.delta, List.map_cons, List.map_nil, List.sum_cons, List.sum_nil]
    omega
  by_cases h : 2 ^ e ≥ n
  · rw [if_pos h, if_pos h]
    exact key _ _
  · rw [if_neg h, if_neg h]
    exact key2 _ _ _ _

theorem sliceSolveTrace_le (e n m : Nat) : peak (sliceSolveTrace e n m) ≤ trsmSpace e n m := by
  rw [(sliceSolveTrace_size e n m).2]
  unfold trsmSpace
  split_ifs <;> omega

theorem traces_hold2 {o : Option α} (a b : Nat) {x : Traced α} (hx : Traces x o []) :
    Traces (getBlock a >>= fun _ => getBlock b >>= fun _ => x >>= fun R => putBlock a >>= fun _ => putBlock b >>= fun _ => pure R) o
      [.get a, .get b, .put a, .put b] :=
  traces_before (traces_get a) (traces_before (traces_get b)
    (traces_after (l := []) (y := putBlock a >>= fun _ => putBlock b) (l' := [.put a, .put b]) hx (traces_before (traces_put a) (traces_put b))))

theorem sliceLowerLeaf_traces (cb : Codebook) {L B : Slice} (hf : L.ff = B.ff) (h1 : L.nrows = B.nrows) (h2 : L.ncols = B.nrows) :
    Traces (mzdSliceTrsmLowerLeftNewtonJohnT cb L B) (mzdSliceTrsmLowerLeftNewtonJohn? cb L B) (sliceSolveTrace B.ff.degree B.nrows B.ncols) := by
  unfold mzdSliceTrsmLowerLeftNewtonJohnT sliceSolveTrace
  by_cases h : 2 ^ L.ff.degree ≥ L.nrows
  · have h' : 2 ^ B.ff.degree ≥ B.nrows := by rw [← hf, ← h1]; exact h
    rw [if_pos h, if_pos h']
    have e : mzdSliceTrsmLowerLeftNewtonJohn? cb L B = mzdSliceTrsmLowerLeftNaive? L B := if_pos h
    rw [e]
    refine Traces.congr (traces_hold2 _ _ (traces_inPlace _)) ?_
    rw [hf, h1, h2]
  · have h' : ¬ 2 ^ B.ff.degree ≥ B.nrows := by rw [← hf, ← h1]; exact h
    rw [if_neg h, if_neg h']
    refine traces_before (traces_get _) (traces_before (njtInit_traces _ _) ?_)
    exact Traces.congr (traces_after (y := clingFreeT B >>= fun _ => njtFreeT B.ff B.ncols) (traces_inPlace _) (traces_before (traces_put _) (njtFree_traces _ _)))
      (List.nil_append _)

theorem sliceUpperLeaf_traces (cb : Codebook) {L B : Slice} (hf : L.ff = B.ff) (h1 : L.nrows = B.nrows) (h2 : L.ncols = B.nrows) :
    Traces (mzdSliceTrsmUpperLeftNewtonJohnT cb L B) (mzdSliceTrsmUpperLeftNewtonJohn? cb L B) (sliceSolveTrace B.ff.degree B.nrows B.ncols) := by
  unfold mzdSliceTrsmUpperLeftNewtonJohnT sliceSolveTrace
  by_cases h : 2 ^ L.ff.degree ≥ L.nrows
  · have h' : 2 ^ B.ff.degree ≥ B.nrows := by rw [← hf, ← h1]; exact h
    rw [if_pos h, if_pos h']
    have e : mzdSliceTrsmUpperLeftNewtonJohn? cb L B = mzdSliceTrsmUpperLeftNaive? L B := if_pos h
    rw [e]
    refine Traces.congr (traces_hold2 _ _ (traces_inPlace _)) ?_
    rw [hf, h1, h2]
  · have h' : ¬ 2 ^ B.ff.degree ≥ B.nrows := by rw [← hf, ← h1]; exact h
    rw [if_neg h, if_neg h']
    refine traces_before (traces_get _) (traces_before (njtInit_traces _ _) ?_)
    exact Traces.congr (traces_after (y := clingFreeT B >>= fun _ => njtFreeT B.ff B.ncols) (traces_inPlace _) (traces_before (traces_put _) (njtFree_traces _ _)))
      (List.nil_append _)

/-- `B` after something was written through a window -/
theorem onSWindow_same {A R : Slice} {lr lc hr hc : Nat} {f : Slice → Option Slice} (h : onSWindow A lr lc hr hc f = some R) :
    R.ff = A.ff ∧ R.nrows = A.nrows ∧ R.ncols = A.ncols ∧ R.depth = A.depth := by
  unfold onSWindow at h
  obtain ⟨W, -, rfl⟩ := Option.map_eq_some_iff.1 h
  exact ⟨rfl, rfl, rfl, rfl⟩

theorem opsWindow_gives (cb : Codebook) (A : Slice) (lr lc hr hc : Nat) {F : Slice × List Event → Option (Slice × List Event)} {g : Slice → Option Slice} {p : Nat}
    (h : Gives (fun s => F (mzdSliceWindow A lr lc hr hc, s)) (g (mzdSliceWindow A lr lc hr hc)) p) :
    Gives (fun s => (sliceTrsmOpsT cb).onWindow (A, s) lr lc hr hc F) (onSWindow A lr lc hr hc g) p := by
  obtain ⟨l, h1, h2, h3⟩ := h
  refine ⟨l, fun s => ?_, h2, h3⟩
  show (F (mzdSliceWindow A lr lc hr hc, s)).map _ = (Option.map _ (g _)).map _
  have := h1 s
  dsimp only at this
  rw [this, Option.map_map, Option.map_map]
  rfl

theorem onSWindowT_gives (A : Slice) (lr lc hr hc : Nat) {f : Slice → Traced Slice} {g : Slice → Option Slice} {p : Nat}
    (h : Gives (f (mzdSliceWindow A lr lc hr hc)) (g (mzdSliceWindow A lr lc hr hc)) p) :
    Gives (onSWindowT A lr lc hr hc f) (onSWindow A lr lc hr hc g) p := by
  obtain ⟨l, h1, h2, h3⟩ := h
  exact ⟨l, traces_map h1 _, h2, h3⟩

/-- the multiplications -/
theorem sliceAddmul_gives {C A B : Slice} (h2 : 2 ≤ A.ff.degree) (h16 : A.ff.degree ≤ 16) :
    Gives (mzdSliceAddmulKaratsubaT C A B) (mzdSliceAddmulKaratsuba? C A B) (gf2Words A.nrows B.ncols + gf2Words A.nrows A.ncols + gf2Words A.ncols B.ncols) := by
  unfold mzdSliceAddmulKaratsubaT mzdSliceAddmulKaratsuba?
  split_ifs
  · exact gives_inPlace _ _
  · exact gives_inPlace _ _
  · obtain ⟨s1, s2⟩ := karaTrace_size A.ff.degree A.nrows A.ncols B.ncols
    refine ⟨_, sliceKara_traces C A B h2 h16, s1, ?_⟩
    rw [s2]
    split_ifs <;> omega

section
variable {ff : Gf2e} [IsField ff]

theorem mulSpace_le (e n c m : Nat) (hw : 1 ≤ degreeToW e) (h : c ≤ n) : gf2Words (n - c) m + gf2Words (n - c) c + gf2Words c m ≤ trsmSpace e n m := by
  obtain ⟨q, rfl⟩ : ∃ q, n = c + q := ⟨n - c, by omega⟩
  rw [Nat.add_sub_cancel_left]
  have h1 := gf2Words_le _ hw (c + q) m
  have h2 := gf2Words_le _ hw (c + q) (c + q)
  have h3 := gf2Words_mono (show q ≤ c + q by omega) (show c ≤ c + q by omega)
  rw [gf2Words_add] at h1
  unfold trsmSpace
  omega

theorem mulSpace_le' (e n c m : Nat) (hw : 1 ≤ degreeToW e) (h : c ≤ n) : gf2Words c m + gf2Words c (n - c) + gf2Words (n - c) m ≤ trsmSpace e n m := by
  obtain ⟨q, rfl⟩ : ∃ q, n = c + q := ⟨n - c, by omega⟩
  rw [Nat.add_sub_cancel_left]
  have h1 := gf2Words_le _ hw (c + q) m
  have h2 := gf2Words_le _ hw (c + q) (c + q)
  have h3 := gf2Words_mono (show c ≤ c + q by omega) (show q ≤ c + q by omega)
  rw [gf2Words_add] at h1
  unfold trsmSpace
  omega

theorem lowerF_gives (cb : Codebook) (cutoff : Int) : ∀ fuel (L : Slice) (t : List Event) (B : Slice), L.ff = ff → B.ff = ff → L.nrows = B.nrows → L.ncols = B.nrows →
    Gives (fun s => trsmLowerF (sliceTrsmOpsT cb) cutoff fuel (L, t) (B, s)) (trsmLowerF (sliceTrsmOps cb) cutoff fuel L B) (trsmSpace ff.degree B.nrows B.ncols)
  | 0, _, _, _, _, _, _, _ => gives_inPlace none _
  | fuel + 1, L, t, B, h1, h2, h3, h4 => by
    have t2 := IsField.two_le (ff := ff)
    have t16 := (Fact.out : FFOK ff).min.e16
    have E1 : ∀ s, trsmLowerF (sliceTrsmOpsT cb) cutoff (fuel + 1) (L, t) (B, s) = if (L.nrows : Int) ≤ cutoff ∨ (B.ncols : Int) ≤ cutoff then
        mzdSliceTrsmLowerLeftNewtonJohnT cb L B s else if B.nrows < trsmSplit L.nrows then none else
        ((sliceTrsmOpsT cb).onWindow (B, s) 0 0 (trsmSplit L.nrows) B.ncols fun B0 =>
          trsmLowerF (sliceTrsmOpsT cb) cutoff fuel (mzdSliceWindow L 0 0 (trsmSplit L.nrows) (trsmSplit L.nrows), []) B0).bind fun B' =>
        ((sliceTrsmOpsT cb).onWindow B' (trsmSplit L.nrows) 0 B.nrows B.ncols fun B1 => mzdSliceAddmulKaratsubaT B1.1
          (mzdSliceWindow L (trsmSplit L.nrows) 0 B.nrows (trsmSplit L.nrows)) (mzdSliceWindow B'.1 0 0 (trsmSplit L.nrows) B.ncols) B1.2).bind fun B' =>
        (sliceTrsmOpsT cb).onWindow B' (trsmSplit L.nrows) 0 B.nrows B.ncols fun B1 =>
          trsmLowerF (sliceTrsmOpsT cb) cutoff fuel (mzdSliceWindow L (trsmSplit L.nrows) (trsmSplit L.nrows) B.nrows B.nrows, []) B1 := fun s => rfl
    have E2 : trsmLowerF (sliceTrsmOps cb) cutoff (fuel + 1) L B = if (L.nrows : Int) ≤ cutoff ∨ (B.ncols : Int) ≤ cutoff then
        mzdSliceTrsmLowerLeftNewtonJohn? cb L B else if B.nrows < trsmSplit L.nrows then none else
        (onSWindow B 0 0 (trsmSplit L.nrows) B.ncols fun B0 =>
          trsmLowerF (sliceTrsmOps cb) cutoff fuel (mzdSliceWindow L 0 0 (trsmSplit L.nrows) (trsmSplit L.nrows)) B0).bind fun B' =>
        (onSWindow B' (trsmSplit L.nrows) 0 B.nrows B.ncols fun B1 => mzdSliceAddmulKaratsuba? B1
          (mzdSliceWindow L (trsmSplit L.nrows) 0 B.nrows (trsmSplit L.nrows)) (mzdSliceWindow B' 0 0 (trsmSplit L.nrows) B.ncols)).bind fun B' =>
        onSWindow B' (trsmSplit L.nrows) 0 B.nrows B.ncols fun B1 =>
          trsmLowerF (sliceTrsmOps cb) cutoff fuel (mzdSliceWindow L (trsmSplit L.nrows) (trsmSplit L.nrows) B.nrows B.nrows) B1 := rfl
    simp only [E1, E2]
    generalize trsmSplit L.nrows = c
    by_cases hb : (L.nrows : Int) ≤ cutoff ∨ (B.ncols : Int) ≤ cutoff
    · simp only [if_pos hb]
      refine ⟨_, sliceLowerLeaf_traces cb (h1.trans h2.symm) h3 h4, (sliceSolveTrace_size _ _ _).1, ?_⟩
      rw [h2]
      exact sliceSolveTrace_le _ _ _
    simp only [if_neg hb]
    by_cases hc : B.nrows < c
    · simp only [if_pos hc]
      exact gives_inPlace none _
    simp only [if_neg hc]
    have hw := degreeToW_pos ff
    have g0 : Gives (fun s => trsmLowerF (sliceTrsmOpsT cb) cutoff fuel (mzdSliceWindow L 0 0 c c, []) (mzdSliceWindow B 0 0 c B.ncols, s))
        (trsmLowerF (sliceTrsmOps cb) cutoff fuel (mzdSliceWindow L 0 0 c c) (mzdSliceWindow B 0 0 c B.ncols)) (trsmSpace ff.degree B.nrows B.ncols) :=
      (lowerF_gives cb cutoff fuel (mzdSliceWindow L 0 0 c c) _ (mzdSliceWindow B 0 0 c B.ncols) h1 h2 rfl rfl).mono (trsmSpace_mono (show c - 0 ≤ B.nrows by omega))
    refine Gives.seq (F := fun B' => ((sliceTrsmOpsT cb).onWindow B' c 0 B.nrows B.ncols fun B1 => mzdSliceAddmulKaratsubaT B1.1
          (mzdSliceWindow L c 0 B.nrows c) (mzdSliceWindow B'.1 0 0 c B.ncols) B1.2).bind fun B' =>
        (sliceTrsmOpsT cb).onWindow B' c 0 B.nrows B.ncols fun B1 => trsmLowerF (sliceTrsmOpsT cb) cutoff fuel (mzdSliceWindow L c c B.nrows B.nrows, []) B1)
      (opsWindow_gives cb B 0 0 c B.ncols g0) fun B' hB' => ?_
    obtain ⟨f1, r1, c1, -⟩ := onSWindow_same hB'
    have g1 : Gives (mzdSliceAddmulKaratsubaT (mzdSliceWindow B' c 0 B.nrows B.ncols) (mzdSliceWindow L c 0 B.nrows c) (mzdSliceWindow B' 0 0 c B.ncols))
        (mzdSliceAddmulKaratsuba? (mzdSliceWindow B' c 0 B.nrows B.ncols) (mzdSliceWindow L c 0 B.nrows c) (mzdSliceWindow B' 0 0 c B.ncols))
        (trsmSpace ff.degree B.nrows B.ncols) :=
      (sliceAddmul_gives (A := mzdSliceWindow L c 0 B.nrows c) (show 2 ≤ L.ff.degree by rw [h1]; exact t2) (show L.ff.degree ≤ 16 by rw [h1]; exact t16)).mono
        (mulSpace_le ff.degree B.nrows c B.ncols hw (by omega))
    refine Gives.seq (F := fun B' => (sliceTrsmOpsT cb).onWindow B' c 0 B.nrows B.ncols fun B1 =>
        trsmLowerF (sliceTrsmOpsT cb) cutoff fuel (mzdSliceWindow L c c B.nrows B.nrows, []) B1)
      (opsWindow_gives cb B' c 0 B.nrows B.ncols (F := fun B1 => mzdSliceAddmulKaratsubaT B1.1 (mzdSliceWindow L c 0 B.nrows c) (mzdSliceWindow B' 0 0 c B.ncols) B1.2)
        (g := fun B1 => mzdSliceAddmulKaratsuba? B1 (mzdSliceWindow L c 0 B.nrows c) (mzdSliceWindow B' 0 0 c B.ncols)) g1) fun B2 hB2 => ?_
    obtain ⟨f2, r2, c2, -⟩ := onSWindow_same hB2
    have g2 : Gives (fun s => trsmLowerF (sliceTrsmOpsT cb) cutoff fuel (mzdSliceWindow L c c B.nrows B.nrows, []) (mzdSliceWindow B2 c 0 B.nrows B.ncols, s))
        (trsmLowerF (sliceTrsmOps cb) cutoff fuel (mzdSliceWindow L c c B.nrows B.nrows) (mzdSliceWindow B2 c 0 B.nrows B.ncols))
        (trsmSpace ff.degree B.nrows B.ncols) :=
      (lowerF_gives cb cutoff fuel (mzdSliceWindow L c c B.nrows B.nrows) _ (mzdSliceWindow B2 c 0 B.nrows B.ncols) h1 (f2.trans (f1.trans h2)) rfl rfl).mono
        (trsmSpace_mono (show B.nrows - c ≤ B.nrows by omega))
    exact opsWindow_gives cb B2 c 0 B.nrows B.ncols g2

theorem upperF_gives (cb : Codebook) (cutoff : Int) : ∀ fuel (U : Slice) (t : List Event) (B : Slice), U.ff = ff → B.ff = ff → U.nrows = B.nrows → U.ncols = B.nrows →
    Gives (fun s => trsmUpperF (sliceTrsmOpsT cb) cutoff fuel (U, t) (B, s)) (trsmUpperF (sliceTrsmOps cb) cutoff fuel U B) (trsmSpace ff.degree B.nrows B.ncols)
  | 0, _, _, _, _, _, _, _ => gives_inPlace none _
  | fuel + 1, U, t, B, h1, h2, h3, h4 => by
    have t2 := IsField.two_le (ff := ff)
    have t16 := (Fact.out : FFOK ff).min.e16
    have E1 : ∀ s, trsmUpperF (sliceTrsmOpsT cb) cutoff (fuel + 1) (U, t) (B, s) = if (U.nrows : Int) ≤ cutoff ∨ (B.ncols : Int) ≤ cutoff then
        mzdSliceTrsmUpperLeftNewtonJohnT cb U B s else if B.nrows < trsmSplit U.nrows then none else
        ((sliceTrsmOpsT cb).onWindow (B, s) (trsmSplit U.nrows) 0 B.nrows B.ncols fun B1 =>
          trsmUpperF (sliceTrsmOpsT cb) cutoff fuel (mzdSliceWindow U (trsmSplit U.nrows) (trsmSplit U.nrows) B.nrows B.nrows, []) B1).bind fun B' =>
        ((sliceTrsmOpsT cb).onWindow B' 0 0 (trsmSplit U.nrows) B.ncols fun B0 => mzdSliceAddmulKaratsubaT B0.1
          (mzdSliceWindow U 0 (trsmSplit U.nrows) (trsmSplit U.nrows) B.nrows) (mzdSliceWindow B'.1 (trsmSplit U.nrows) 0 B.nrows B.ncols) B0.2).bind fun B' =>
        (sliceTrsmOpsT cb).onWindow B' 0 0 (trsmSplit U.nrows) B.ncols fun B0 =>
          trsmUpperF (sliceTrsmOpsT cb) cutoff fuel (mzdSliceWindow U 0 0 (trsmSplit U.nrows) (trsmSplit U.nrows), []) B0 := fun s => rfl
    have E2 : trsmUpperF (sliceTrsmOps cb) cutoff (fuel + 1) U B = if (U.nrows : Int) ≤ cutoff ∨ (B.ncols : Int) ≤ cutoff then
        mzdSliceTrsmUpperLeftNewtonJohn? cb U B else if B.nrows < trsmSplit U.nrows then none else
        (onSWindow B (trsmSplit U.nrows) 0 B.nrows B.ncols fun B1 =>
          trsmUpperF (sliceTrsmOps cb) cutoff fuel (mzdSliceWindow U (trsmSplit U.nrows) (trsmSplit U.nrows) B.nrows B.nrows) B1).bind fun B' =>
        (onSWindow B' 0 0 (trsmSplit U.nrows) B.ncols fun B0 => mzdSliceAddmulKaratsuba? B0
          (mzdSliceWindow U 0 (trsmSplit U.nrows) (trsmSplit U.nrows) B.nrows) (mzdSliceWindow B' (trsmSplit U.nrows) 0 B.nrows B.ncols)).bind fun B' =>
        onSWindow B' 0 0 (trsmSplit U.nrows) B.ncols fun B0 =>
          trsmUpperF (sliceTrsmOps cb) cutoff fuel (mzdSliceWindow U 0 0 (trsmSplit U.nrows) (trsmSplit U.nrows)) B0 := rfl
    simp only [E1, E2]
    generalize trsmSplit U.nrows = c
    by_cases hb : (U.nrows : Int) ≤ cutoff ∨ (B.ncols : Int) ≤ cutoff
    · simp only [if_pos hb]
      refine ⟨_, sliceUpperLeaf_traces cb (h1.trans h2.symm) h3 h4, (sliceSolveTrace_size _ _ _).1, ?_⟩
      rw [h2]
      exact sliceSolveTrace_le _ _ _
    simp only [if_neg hb]
    by_cases hc : B.nrows < c
    · simp only [if_pos hc]
      exact gives_inPlace none _
    simp only [if_neg hc]
    have hw := degreeToW_pos ff
    have g0 : Gives (fun s => trsmUpperF (sliceTrsmOpsT cb) cutoff fuel (mzdSliceWindow U c c B.nrows B.nrows, []) (mzdSliceWindow B c 0 B.nrows B.ncols, s))
        (trsmUpperF (sliceTrsmOps cb) cutoff fuel (mzdSliceWindow U c c B.nrows B.nrows) (mzdSliceWindow B c 0 B.nrows B.ncols)) (trsmSpace ff.degree B.nrows B.ncols) :=
      (upperF_gives cb cutoff fuel (mzdSliceWindow U c c B.nrows B.nrows) _ (mzdSliceWindow B c 0 B.nrows B.ncols) h1 h2 rfl rfl).mono
        (trsmSpace_mono (show B.nrows - c ≤ B.nrows by omega))
    refine Gives.seq (F := fun B' => ((sliceTrsmOpsT cb).onWindow B' 0 0 c B.ncols fun B0 => mzdSliceAddmulKaratsubaT B0.1
          (mzdSliceWindow U 0 c c B.nrows) (mzdSliceWindow B'.1 c 0 B.nrows B.ncols) B0.2).bind fun B' =>
        (sliceTrsmOpsT cb).onWindow B' 0 0 c B.ncols fun B0 => trsmUpperF (sliceTrsmOpsT cb) cutoff fuel (mzdSliceWindow U 0 0 c c, []) B0)
      (opsWindow_gives cb B c 0 B.nrows B.ncols g0) fun B' hB' => ?_
    obtain ⟨f1, r1, c1, -⟩ := onSWindow_same hB'
    have g1 : Gives (mzdSliceAddmulKaratsubaT (mzdSliceWindow B' 0 0 c B.ncols) (mzdSliceWindow U 0 c c B.nrows) (mzdSliceWindow B' c 0 B.nrows B.ncols))
        (mzdSliceAddmulKaratsuba? (mzdSliceWindow B' 0 0 c B.ncols) (mzdSliceWindow U 0 c c B.nrows) (mzdSliceWindow B' c 0 B.nrows B.ncols))
        (trsmSpace ff.degree B.nrows B.ncols) :=
      (sliceAddmul_gives (A := mzdSliceWindow U 0 c c B.nrows) (show 2 ≤ U.ff.degree by rw [h1]; exact t2) (show U.ff.degree ≤ 16 by rw [h1]; exact t16)).mono
        (mulSpace_le' ff.degree B.nrows c B.ncols hw (by omega))
    refine Gives.seq (F := fun B' => (sliceTrsmOpsT cb).onWindow B' 0 0 c B.ncols fun B0 =>
        trsmUpperF (sliceTrsmOpsT cb) cutoff fuel (mzdSliceWindow U 0 0 c c, []) B0)
      (opsWindow_gives cb B' 0 0 c B.ncols (F := fun B0 => mzdSliceAddmulKaratsubaT B0.1 (mzdSliceWindow U 0 c c B.nrows) (mzdSliceWindow B' c 0 B.nrows B.ncols) B0.2)
        (g := fun B0 => mzdSliceAddmulKaratsuba? B0 (mzdSliceWindow U 0 c c B.nrows) (mzdSliceWindow B' c 0 B.nrows B.ncols)) g1) fun B2 hB2 => ?_
    obtain ⟨f2, r2, c2, -⟩ := onSWindow_same hB2
    have g2 : Gives (fun s => trsmUpperF (sliceTrsmOpsT cb) cutoff fuel (mzdSliceWindow U 0 0 c c, []) (mzdSliceWindow B2 0 0 c B.ncols, s))
        (trsmUpperF (sliceTrsmOps cb) cutoff fuel (mzdSliceWindow U 0 0 c c) (mzdSliceWindow B2 0 0 c B.ncols))
        (trsmSpace ff.degree B.nrows B.ncols) :=
      (upperF_gives cb cutoff fuel (mzdSliceWindow U 0 0 c c) _ (mzdSliceWindow B2 0 0 c B.ncols) h1 (f2.trans (f1.trans h2)) rfl rfl).mono
        (trsmSpace_mono (show c - 0 ≤ B.nrows by omega))
    exact opsWindow_gives cb B2 0 0 c B.ncols g2

theorem sliceLower_gives (cb : Codebook) (cutoff : Int) {L B : Slice} (h1 : L.ff = ff) (h2 : B.ff = ff) (h3 : L.nrows = B.nrows) (h4 : L.ncols = B.nrows) :
    Gives (mzdSliceTrsmLowerLeftT cb L B cutoff) (mzdSliceTrsmLowerLeft? cb L B cutoff) (trsmSpace ff.degree B.nrows B.ncols) :=
  lowerF_gives cb cutoff _ L [] B h1 h2 h3 h4

theorem sliceUpper_gives (cb : Codebook) (cutoff : Int) {U B : Slice} (h1 : U.ff = ff) (h2 : B.ff = ff) (h3 : U.nrows = B.nrows) (h4 : U.ncols = B.nrows) :
    Gives (mzdSliceTrsmUpperLeftT cb U B cutoff) (mzdSliceTrsmUpperLeft? cb U B cutoff) (trsmSpace ff.degree B.nrows B.ncols) :=
  upperF_gives cb cutoff _ U [] B h1 h2 h3 h4

/-! ### Decomposition -/

/-- what decomposing an `m × n` matrix takes -/
def pleSpace (e m n : Nat) : Nat := packedWords (degreeToW e) m n + tableWords e (degreeToW e) n

theorem pleSpace_mono {e m m' n n' : Nat} (h1 : m ≤ m') (h2 : n ≤ n') : pleSpace e m n ≤ pleSpace e m' n' :=
  Nat.add_le_add (packedWords_mono h1 h2) (tableWords_mono h2)

theorem pleNj_traces (cb : Codebook) (A : Mzed) (P Q : Nat → Nat) : Traces (mzedPleNewtonJohnT cb A P Q) (some (mzedPleNewtonJohn cb A P Q))
    (tblGet A.ff.degree (degreeToW A.ff.degree) A.ncols ++ tblPut A.ff.degree (degreeToW A.ff.degree) A.ncols) :=
  traces_before (njtInit_traces _ _) (Traces.congr (traces_before (njtFree_traces _ _) (traces_pure _)) (List.append_nil _))

theorem tbl_size (e w n : Nat) : inUse (tblGet e w n ++ tblPut e w n) = 0 ∧ peak (tblGet e w n ++ tblPut e w n) = tableWords e w n := by
  have e1 := inUse_tblGet e w n
  have e2 := inUse_tblPut e w n
  have e3 : peak (tblGet e w n) = inUse (tblGet e w n) := peak_gets fun x hx => by
    unfold tblGet at hx
    fin_cases hx <;> exact Int.natCast_nonneg _
  have e4 : peak (tblPut e w n) = 0 := peak_puts fun x hx => by
    unfold tblPut at hx
    fin_cases hx <;> exact Int.neg_nonpos_of_nonneg (Int.natCast_nonneg _)
  have h0 : (0 : Int) ≤ tableWords e w n := Int.natCast_nonneg _
  rw [inUse_append, peak_append, e1, e2, e3, e1, e4]
  omega

/-- the trace of ple.c:96-102 -/
def pleBaseTrace (e m n : Nat) : List Event :=
  [.get (packedWords (degreeToW e) m n)] ++ ((tblGet e (degreeToW e) n ++ tblPut e (degreeToW e) n) ++ [.put (packedWords (degreeToW e) m n)])

theorem pleBaseTrace_size (e m n : Nat) : inUse (pleBaseTrace e m n) = 0 ∧ peak (pleBaseTrace e m n) = (pleSpace e m n : Nat) := by
  obtain ⟨t1, t2⟩ := tbl_size e (degreeToW e) n
  obtain ⟨s1, s2⟩ := hold_size t1 (packedWords (degreeToW e) m n)
  refine ⟨s1, ?_⟩
  unfold pleBaseTrace
  rw [s2, t2]
  unfold pleSpace
  push_cast
  rfl

theorem pleBase_traces (cb : Codebook) (X : Mat ff) (P Q : Nat → Nat) :
    Traces (mzdSlicePleBaseT cb X.spack P Q) (mzdSlicePleBase? cb X.spack P Q) (pleBaseTrace ff.degree X.nrows X.ncols) := by
  unfold mzdSlicePleBaseT mzdSlicePleBase?
  refine traces_before (traces_get _) ?_
  refine Traces.congr (traces_bind (traces_inPlace _) fun Abar hA => ?_) (List.nil_append _)
  rw [clingNew_pack] at hA
  cases hA
  suffices hs : Traces _ ((some (mzedPleNewtonJohn cb X.trim.pack P Q)).bind fun p => (mzedSlice? X.spack p.1).map fun A => (A, p.2.1, p.2.2.1, p.2.2.2)) _ from hs
  refine traces_bind (pleNj_traces cb _ P Q) fun p _ => ?_
  rw [Option.map_eq_bind]
  exact Traces.congr (traces_bind (traces_inPlace _) fun R _ => Traces.congr (traces_before (traces_put _) (traces_pure _)) (List.append_nil _)) (List.nil_append _)

theorem trsm_in_ple {e m n r n1 : Nat} (h1 : r ≤ m) (h2 : r ≤ n1) (h3 : n1 % 64 = 0) (h4 : n1 ≤ n) : trsmSpace e r (n - n1) ≤ pleSpace e m n := by
  obtain ⟨k, rfl⟩ : ∃ k, n = n1 + k := ⟨n - n1, by omega⟩
  rw [Nat.add_sub_cancel_left]
  unfold trsmSpace pleSpace
  have a1 := packedWords_beside (w := degreeToW e) (m := m) (k := k) h3
  have a2 := packedWords_mono (w := degreeToW e) h1 (le_refl k)
  have a3 := packedWords_mono (w := degreeToW e) h1 h2
  have a4 := tableWords_mono (e := e) (w := degreeToW e) (show k ≤ n1 + k by omega)
  omega

theorem mul_in_ple {e m n r n1 : Nat} (hw : 1 ≤ degreeToW e) (h1 : r ≤ m) (h2 : r ≤ n1) (h3 : n1 % 64 = 0) (h4 : n1 ≤ n) :
    gf2Words (m - r) (n - n1) + gf2Words (m - r) r + gf2Words r (n - n1) ≤ pleSpace e m n := by
  obtain ⟨k, rfl⟩ : ∃ k, n = n1 + k := ⟨n - n1, by omega⟩
  obtain ⟨q, rfl⟩ : ∃ q, m = r + q := ⟨m - r, by omega⟩
  rw [Nat.add_sub_cancel_left, Nat.add_sub_cancel_left]
  unfold pleSpace
  have a1 := packedWords_beside (w := degreeToW e) (m := r + q) (k := k) h3
  have a2 := gf2Words_add r q k
  have a3 := gf2Words_le _ hw (r + q) k
  have a4 := gf2Words_le _ hw (r + q) n1
  have a5 := gf2Words_mono (show q ≤ r + q by omega) h2
  omega

theorem pleSchur_gives (cb : Codebook) {A : Slice} (hf : A.ff = ff) (P1 : Nat → Nat) {r1 n1 : Nat} (h1 : r1 ≤ A.nrows) (h2 : r1 ≤ n1) (h3 : n1 % 64 = 0)
    (h4 : n1 ≤ A.ncols) : Gives (pleSchurT cb A P1 r1 n1) (pleSchur? cb A P1 r1 n1) (pleSpace ff.degree A.nrows A.ncols) := by
  have t2 := IsField.two_le (ff := ff)
  have t16 := (Fact.out : FFOK ff).min.e16
  have hw := degreeToW_pos ff
  unfold pleSchurT pleSchur?
  by_cases h : r1 = 0
  · simp only [if_pos h]
    exact gives_pure _ _
  simp only [if_neg h]
  have hA1 : ∀ A1 : Slice, A1.ff = ff → A1.nrows = A.nrows → A1.ncols = A.ncols → Gives
      (onSWindowT A1 0 n1 r1 A.ncols (fun A01 => mzdSliceTrsmLowerLeftT cb (mzdSliceWindow A1 0 0 r1 r1) A01 mzedTrsmCutoff) >>= fun A2 =>
        onSWindowT A2 r1 n1 A.nrows A.ncols fun A11 => mzdSliceAddmulKaratsubaT A11 (mzdSliceWindow A2 r1 0 A.nrows r1) (mzdSliceWindow A2 0 n1 r1 A.ncols))
      ((onSWindow A1 0 n1 r1 A.ncols fun A01 => mzdSliceTrsmLowerLeft? cb (mzdSliceWindow A1 0 0 r1 r1) A01 mzedTrsmCutoff).bind fun A2 =>
        onSWindow A2 r1 n1 A.nrows A.ncols fun A11 => mzdSliceAddmulKaratsuba? A11 (mzdSliceWindow A2 r1 0 A.nrows r1) (mzdSliceWindow A2 0 n1 r1 A.ncols))
      (pleSpace ff.degree A.nrows A.ncols) := by
    intro A1 f1 r1' c1
    refine Gives.bind (onSWindowT_gives _ _ _ _ _ ((sliceLower_gives cb mzedTrsmCutoff (L := mzdSliceWindow A1 0 0 r1 r1) (B := mzdSliceWindow A1 0 n1 r1 A.ncols)
      f1 f1 rfl rfl).mono (trsm_in_ple h1 h2 h3 h4))) fun A2 h5 => ?_
    obtain ⟨f2, -, -, -⟩ := onSWindow_same h5
    refine onSWindowT_gives A2 r1 n1 A.nrows A.ncols (f := fun A11 => mzdSliceAddmulKaratsubaT A11 (mzdSliceWindow A2 r1 0 A.nrows r1) (mzdSliceWindow A2 0 n1 r1 A.ncols))
      (g := fun A11 => mzdSliceAddmulKaratsuba? A11 (mzdSliceWindow A2 r1 0 A.nrows r1) (mzdSliceWindow A2 0 n1 r1 A.ncols)) ?_
    exact (sliceAddmul_gives (A := mzdSliceWindow A2 r1 0 A.nrows r1) (show 2 ≤ A2.ff.degree by rw [f2, f1]; exact t2)
      (show A2.ff.degree ≤ 16 by rw [f2, f1]; exact t16)).mono (mul_in_ple hw h1 h2 h3 h4)
  exact hA1 _ hf rfl rfl

theorem slicePleF_gives {env : PleEnv} (hc : CompressOk env.compress) (hcb : env.cb.Ok ff.degree) :
    ∀ fuel (X : Mat ff) P Q, X.ncols < fuel →
      Gives (mzdSlicePleFT env fuel X.spack P Q) (mzdSlicePleF env fuel X.spack P Q) (pleSpace ff.degree X.nrows X.ncols)
  | 0, _, _, _, h => absurd h (by omega)
  | fuel + 1, X, P, Q, hf => by
    rw [mzdSlicePleF.eq_def, mzdSlicePleFT.eq_def]
    dsimp only
    rw [spack_nrows, spack_ncols]
    by_cases hb : X.ncols ≤ 64 ∨ env.small X.nrows X.ncols = true
    · rw [if_pos hb, if_pos hb]
      obtain ⟨s1, s2⟩ := pleBaseTrace_size ff.degree X.nrows X.ncols
      exact ⟨_, pleBase_traces env.cb X P Q, s1, s2.le⟩
    rw [if_neg hb, if_neg hb]
    obtain ⟨hn64, hn0, hn⟩ := pleSplit_spec (n := X.ncols) (by omega)
    generalize pleSplit X.ncols = n1 at *
    rw [sliceWindow_spack X 0 0 _ _ rfl]
    have g1 := slicePleF_gives hc hcb fuel (X.window 0 0 X.nrows n1) P Q (by simp; omega)
    obtain ⟨Z1, P1, Q1, r1, e1, s1, d1, f1, p1, q1, i1⟩ := mzdSlicePleF_spack hc hcb fuel (X.window 0 0 X.nrows n1) P Q
      (by simp; omega)
    simp only [Mat.window_nrows, Mat.window_ncols, Nat.sub_zero] at s1 d1 f1 p1 q1 i1 g1
    refine Gives.bind (g1.mono (pleSpace_mono le_rfl (by omega))) fun res hres => ?_
    obtain rfl := Option.some.inj (e1.symm.trans hres)
    simp only [sliceSetWindow_spack X Z1 0 0 rfl]
    have eA1 : ∀ i j, (X.unwindow 0 0 Z1).e i j = Z1.e i j := fun i j => unwindow_zero_e X Z1 i j
    have d1' : IsPLE X.nrows n1 r1 X.e (X.unwindow 0 0 Z1).e P1 Q1 := IsPLE_congr d1 (fun i j _ _ => by simp [Mat.window]) (fun i j _ _ => eA1 i j)
    obtain ⟨A2, eS, sS, -⟩ := pleSchur_spack hcb (X.unwindow 0 0 Z1) P1 (r := r1) (n := n1) d1.le d1.rle hn hn64 (fun i hi => (d1.perm i hi).2)
      i1 d1'.diag
    have nA2 : A2.nrows = X.nrows := sS.nrows
    have cA2 : A2.ncols = X.ncols := sS.ncols
    refine Gives.bind (pleSchur_gives (ff := ff) env.cb (A := (X.unwindow 0 0 Z1).spack) rfl P1 d1.le d1.rle hn64 hn.le) fun A2' hA2 => ?_
    obtain rfl := Option.some.inj (eS.symm.trans hA2)
    rw [sliceWindow_spack A2 r1 n1 _ _ hn64]
    have g2 := slicePleF_gives hc hcb fuel (A2.window r1 n1 X.nrows X.ncols)
      (fun i => P1 (r1 + i)) (fun i => Q1 (n1 + i)) (by simp; omega)
    simp only [Mat.window_nrows, Mat.window_ncols] at g2
    exact Gives.bind (g2.mono (pleSpace_mono (by omega) (by omega))) fun _ _ => gives_pure _ _

/-! ### Elimination -/

theorem holdN_traces (k c : Nat) {x : Traced α} {o : Option α} {l : List Event} (hx : Traces x o l) :
    Traces (timesT k (getBlock c) >>= fun _ => x >>= fun R => timesT k (putBlock c) >>= fun _ => pure R) o
      ((List.replicate k [Event.get c]).flatten ++ (l ++ (List.replicate k [Event.put c]).flatten)) :=
  traces_before (traces_times (traces_get c) k) (traces_after hx (traces_times (traces_put c) k))

theorem holdN_size (k c : Nat) {l : List Event} (h : inUse l = 0) :
    inUse ((List.replicate k [Event.get c]).flatten ++ (l ++ (List.replicate k [Event.put c]).flatten)) = 0 ∧
    peak ((List.replicate k [Event.get c]).flatten ++ (l ++ (List.replicate k [Event.put c]).flatten)) = (k * c : Nat) + peak l := by
  obtain ⟨a1, a2⟩ := Props.gets_size k c
  obtain ⟨b1, b2⟩ := Props.puts_size k c
  have := peak_nonneg l
  rw [inUse_append, inUse_append, peak_append, peak_append, a1, a2, b1, b2, h]
  generalize k * c = x
  omega

theorem gives_holdN (k c : Nat) {x : Traced α} {o : Option α} {p : Nat} (hx : Gives x o p) :
    Gives (timesT k (getBlock c) >>= fun _ => x >>= fun R => timesT k (putBlock c) >>= fun _ => pure R) o (k * c + p) := by
  obtain ⟨l, h1, h2, h3⟩ := hx
  obtain ⟨s1, s2⟩ := holdN_size k c h2
  refine ⟨_, holdN_traces k c h1, s1, ?_⟩
  rw [s2]
  push_cast at h3 ⊢
  omega

/-- what the columns copied aside take besides (echelonform.c:57, 73): at most 64 columns of `m` rows, and as many packed because they begin before the last pivot -/
def asideSpace (e m : Nat) : Nat := m * (degreeToW e + e)

theorem trsm_in_aside {e m n r a k : Nat} (h1 : r ≤ m) (h2 : 64 * (r / 64) + a ≤ n) (h4 : k ≤ a) (h64 : a ≤ 64) :
    trsmSpace e r k ≤ pleSpace e m n + m * degreeToW e := by
  generalize hq : r / 64 = q at *
  unfold trsmSpace pleSpace
  have hr : r ≤ 64 * q + 64 := by omega
  have a1 := packedWords_beside (w := degreeToW e) (m := m) (n1 := 64 * q) (k := a) (by omega)
  have a2 := packedWords_mono (w := degreeToW e) (le_refl m) h2
  have a3 := packedWords_mono (w := degreeToW e) h1 h4
  have a4 := packedWords_mono (w := degreeToW e) h1 hr
  have a5 := packedWords_beside (w := degreeToW e) (m := m) (n1 := 64 * q) (k := 64) (by omega)
  have a6 : packedWords (degreeToW e) m 64 = m * degreeToW e := by
    unfold packedWords
    congr 1
    omega
  have a7 := tableWords_mono (e := e) (w := degreeToW e) (show k ≤ n by omega)
  omega

theorem aside_held {e m n r : Nat} (k : Nat) (h1 : r ≤ m) (hk : k ≤ 64) :
    e * gf2Words (r - 0) k + (pleSpace e m n + m * degreeToW e) ≤ pleSpace e m n + asideSpace e m := by
  have h2 : gf2Words (r - 0) k ≤ m := by
    unfold gf2Words
    calc (r - 0) * ((k + 63) / 64) ≤ m * 1 := Nat.mul_le_mul (by omega) (by omega)
      _ = m := Nat.mul_one m
  have h3 := Nat.mul_le_mul_left e h2
  unfold asideSpace
  have : m * (degreeToW e + e) = m * degreeToW e + e * m := by ring
  omega

theorem echPleSolve_gives (cb : Codebook) {A : Slice} (hf : A.ff = ff) (hd : A.depth = ff.degree) {r : Nat} (h1 : r ≤ A.nrows) (h2 : r ≤ A.ncols) :
    Gives (echPleSolveT cb A r) (echPleSolve? cb A r) (pleSpace ff.degree A.nrows A.ncols + asideSpace ff.degree A.nrows) := by
  unfold echPleSolveT echPleSolve?
  dsimp only
  refine Gives.bind ?_ fun _ _ => gives_inPlace _ _
  generalize hA1 : sliceSetWindow A 0 0 (forN (fun i U => mzdSliceWriteElem U i i 1#64) r (mzdSliceWindow A 0 0 r r)) = A1
  have f1 : A1.ff = ff := by rw [← hA1]; exact hf
  by_cases c1 : 64 * (r / 64) = r ∧ r ≠ A.ncols
  · rw [if_pos c1, if_pos c1]
    refine (onSWindowT_gives A1 0 r r A.ncols (f := fun B => mzdSliceTrsmUpperLeftT cb (mzdSliceWindow A1 0 0 r r) B mzedTrsmCutoff)
      (g := fun B => mzdSliceTrsmUpperLeft? cb (mzdSliceWindow A1 0 0 r r) B mzedTrsmCutoff)
      ((sliceUpper_gives cb mzedTrsmCutoff (U := mzdSliceWindow A1 0 0 r r) (B := mzdSliceWindow A1 0 r r A.ncols) f1 f1 rfl rfl).mono
        (trsm_in_ple (n := A.ncols) (n1 := r) (m := A.nrows) h1 le_rfl (by omega) h2))).mono (by omega)
  rw [if_neg c1, if_neg c1]
  by_cases c2 : 64 * (r / 64) ≠ r ∧ r ≠ A.ncols
  · rw [if_pos c2, if_pos c2]
    by_cases c3 : A.ncols > 64 * (r / 64) + 64
    · rw [if_pos c3, if_pos c3]
      have key : Gives (mzdSliceTrsmUpperLeftT cb (mzdSliceWindow A1 0 0 r r) (mzdSliceSubmatrix A 0 (64 * (r / 64)) r (64 * (r / 64) + 64)) mzedTrsmCutoff >>= fun B0 =>
          onSWindowT A1 0 (64 * (r / 64) + 64) r A.ncols (fun B1 => mzdSliceTrsmUpperLeftT cb (mzdSliceWindow A1 0 0 r r) B1 mzedTrsmCutoff) >>= fun A2 =>
          inPlace (onSWindow A2 0 (64 * (r / 64)) r (64 * (r / 64) + 64) fun B0w => some (mzdSliceCopy B0w B0)))
          ((mzdSliceTrsmUpperLeft? cb (mzdSliceWindow A1 0 0 r r) (mzdSliceSubmatrix A 0 (64 * (r / 64)) r (64 * (r / 64) + 64)) mzedTrsmCutoff).bind fun B0 =>
          (onSWindow A1 0 (64 * (r / 64) + 64) r A.ncols fun B1 => mzdSliceTrsmUpperLeft? cb (mzdSliceWindow A1 0 0 r r) B1 mzedTrsmCutoff).bind fun A2 =>
          onSWindow A2 0 (64 * (r / 64)) r (64 * (r / 64) + 64) fun B0w => some (mzdSliceCopy B0w B0))
          (pleSpace ff.degree A.nrows A.ncols + A.nrows * degreeToW ff.degree) := by
        refine Gives.bind ((sliceUpper_gives cb mzedTrsmCutoff (U := mzdSliceWindow A1 0 0 r r)
          (B := mzdSliceSubmatrix A 0 (64 * (r / 64)) r (64 * (r / 64) + 64)) f1 hf rfl rfl).mono ?_) fun B0 _ => ?_
        · show trsmSpace ff.degree (r - 0) (64 * (r / 64) + 64 - 64 * (r / 64)) ≤ _
          exact trsm_in_aside (a := 64) (by omega) (by
            rw [show r - 0 = r by omega]
            omega) (by omega) le_rfl
        refine Gives.bind (onSWindowT_gives A1 0 (64 * (r / 64) + 64) r A.ncols (f := fun B => mzdSliceTrsmUpperLeftT cb (mzdSliceWindow A1 0 0 r r) B mzedTrsmCutoff)
          (g := fun B => mzdSliceTrsmUpperLeft? cb (mzdSliceWindow A1 0 0 r r) B mzedTrsmCutoff)
          ((sliceUpper_gives cb mzedTrsmCutoff (U := mzdSliceWindow A1 0 0 r r) (B := mzdSliceWindow A1 0 (64 * (r / 64) + 64) r A.ncols) f1 f1 rfl rfl).mono
            (Nat.le_add_right_of_le (trsm_in_ple (n := A.ncols) (n1 := 64 * (r / 64) + 64) (r := r - 0) (m := A.nrows) (by omega) (by omega) (by omega) (by omega))))) fun _ _ =>
          gives_inPlace _ _
      have h := gives_holdN A.depth (gf2Words (r - 0) (64 * (r / 64) + 64 - 64 * (r / 64))) key
      simp only [bind_assoc] at h
      refine Gives.mono h ?_
      rw [hd, show 64 * (r / 64) + 64 - 64 * (r / 64) = 64 by omega]
      exact aside_held 64 h1 le_rfl
    · rw [if_neg c3, if_neg c3]
      have key : Gives (mzdSliceTrsmUpperLeftT cb (mzdSliceWindow A1 0 0 r r) (mzdSliceSubmatrix A 0 (64 * (r / 64)) r A.ncols) mzedTrsmCutoff >>= fun B =>
          inPlace (onSWindow A1 0 (64 * (r / 64)) r A.ncols fun Bw => some (mzdSliceCopy Bw B)))
          ((mzdSliceTrsmUpperLeft? cb (mzdSliceWindow A1 0 0 r r) (mzdSliceSubmatrix A 0 (64 * (r / 64)) r A.ncols) mzedTrsmCutoff).bind fun B =>
          onSWindow A1 0 (64 * (r / 64)) r A.ncols fun Bw => some (mzdSliceCopy Bw B))
          (pleSpace ff.degree A.nrows A.ncols + A.nrows * degreeToW ff.degree) := by
        refine Gives.bind ((sliceUpper_gives cb mzedTrsmCutoff (U := mzdSliceWindow A1 0 0 r r)
          (B := mzdSliceSubmatrix A 0 (64 * (r / 64)) r A.ncols) f1 hf rfl rfl).mono ?_) fun B0 _ => gives_inPlace _ _
        show trsmSpace ff.degree (r - 0) (A.ncols - 64 * (r / 64)) ≤ _
        exact trsm_in_aside (a := A.ncols - 64 * (r / 64)) (by omega) (by
            rw [show r - 0 = r by omega]
            omega) le_rfl (by omega)
      have h := gives_holdN A.depth (gf2Words (r - 0) (A.ncols - 64 * (r / 64))) key
      simp only [bind_assoc] at h
      refine Gives.mono h ?_
      rw [hd]
      exact aside_held _ h1 (by omega)
  · rw [if_neg c2, if_neg c2]
    exact gives_pure _ _

end

end M4rie
