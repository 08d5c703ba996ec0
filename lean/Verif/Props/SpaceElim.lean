import Verif.Proofs.SpaceElim
import Verif.Props.PleRec

/-!
# C83: how much memory solving, decomposing and eliminating take

`peak l` (Spec/Space) is the most memory in use at any time during the allocations and releases `l`, in words of 64 bits; `Balanced x o l` says that `x`, the version with a trace (Model/SpaceElim),
has the result of the function `o` of the other models, that its trace is `l`, and that everything allocated is released.  `w` is `degreeToW ff.degree`, the bits of an element in a packed matrix.
-/

namespace M4rie.Props
open M4rie M4rie.Spec

variable {ff : Gf2e} [IsField ff]

/-! ### Solving -/

section
variable (cb : Codebook) (cutoff : Int) {A B : Slice} (hA : A.ff = ff) (hB : B.ff = ff) (h1 : A.nrows = B.nrows) (h2 : A.ncols = B.nrows)
include hA hB h1 h2

/-- **C83** `_mzd_slice_trsm_lower_left(L,B,cutoff)` and `_mzd_slice_trsm_upper_left(U,B,cutoff)`, however deep the recursion goes: at most a packed copy of `B` and the larger of a packed copy of the
triangular matrix and a Newton-John table. -/
theorem C83_slice_trsm : ∃ l l', Balanced (mzdSliceTrsmLowerLeftT cb A B cutoff) (mzdSliceTrsmLowerLeft? cb A B cutoff) l ∧
    Balanced (mzdSliceTrsmUpperLeftT cb A B cutoff) (mzdSliceTrsmUpperLeft? cb A B cutoff) l' ∧
    peak l ≤ (packedWords (degreeToW ff.degree) B.nrows B.ncols +
      max (packedWords (degreeToW ff.degree) B.nrows B.nrows) (tableWords ff.degree (degreeToW ff.degree) B.ncols) : Nat) ∧
    peak l' ≤ (packedWords (degreeToW ff.degree) B.nrows B.ncols +
      max (packedWords (degreeToW ff.degree) B.nrows B.nrows) (tableWords ff.degree (degreeToW ff.degree) B.ncols) : Nat) := by
  obtain ⟨l, a1, a2, a3⟩ := sliceLower_gives cb cutoff hA hB h1 h2
  obtain ⟨l', b1, b2, b3⟩ := sliceUpper_gives cb cutoff hA hB h1 h2
  exact ⟨l, l', ⟨a1, a2⟩, ⟨b1, b2⟩, a3, b3⟩

omit [IsField ff] in
/-- **C83** without recursion, exactly a packed copy of `B` and, up to `2^e` rows, one of the triangular matrix, and for more rows a table. -/
theorem C83_slice_trsm_direct (h : (B.nrows : Int) ≤ cutoff ∨ (B.ncols : Int) ≤ cutoff) :
    ∃ l, Balanced (mzdSliceTrsmLowerLeftT cb A B cutoff) (mzdSliceTrsmLowerLeft? cb A B cutoff) l ∧
    Balanced (mzdSliceTrsmUpperLeftT cb A B cutoff) (mzdSliceTrsmUpperLeft? cb A B cutoff) l ∧
    peak l = (packedWords (degreeToW ff.degree) B.nrows B.ncols +
      if B.nrows ≤ 2 ^ ff.degree then packedWords (degreeToW ff.degree) B.nrows B.nrows else tableWords ff.degree (degreeToW ff.degree) B.ncols : Nat) := by
  obtain ⟨s1, s2⟩ := sliceSolveTrace_size B.ff.degree B.nrows B.ncols
  rw [hB] at s2
  refine ⟨_, ⟨?_, s1⟩, ⟨?_, s1⟩, by rw [hB]; exact s2⟩
  · intro s
    unfold mzdSliceTrsmLowerLeftT mzdSliceTrsmLowerLeft? trsmLowerF
    have hb1 : ((sliceTrsmOpsT cb).nrows (A, []) : Int) ≤ cutoff ∨ ((sliceTrsmOpsT cb).ncols (B, s) : Int) ≤ cutoff := by
      show (A.nrows : Int) ≤ cutoff ∨ (B.ncols : Int) ≤ cutoff
      rwa [h1]
    have hb2 : ((sliceTrsmOps cb).nrows A : Int) ≤ cutoff ∨ ((sliceTrsmOps cb).ncols B : Int) ≤ cutoff := hb1
    rw [if_pos hb1, if_pos hb2]
    exact sliceLowerLeaf_traces cb (hA.trans hB.symm) h1 h2 s
  · intro s
    unfold mzdSliceTrsmUpperLeftT mzdSliceTrsmUpperLeft? trsmUpperF
    have hb1 : ((sliceTrsmOpsT cb).nrows (A, []) : Int) ≤ cutoff ∨ ((sliceTrsmOpsT cb).ncols (B, s) : Int) ≤ cutoff := by
      show (A.nrows : Int) ≤ cutoff ∨ (B.ncols : Int) ≤ cutoff
      rwa [h1]
    have hb2 : ((sliceTrsmOps cb).nrows A : Int) ≤ cutoff ∨ ((sliceTrsmOps cb).ncols B : Int) ≤ cutoff := hb1
    rw [if_pos hb1, if_pos hb2]
    exact sliceUpperLeaf_traces cb (hA.trans hB.symm) h1 h2 s

end

/-! ### The Newton-John algorithms -/

section
omit [IsField ff]

theorem tables_traces (ff : Gf2e) (k n : Nat) {α : Type} (a : α) : Traces (timesT k (njtInitT ff n) >>= fun _ => timesT k (njtFreeT ff n) >>= fun _ => pure a) (some a)
    ((List.replicate k (tblGet ff.degree (degreeToW ff.degree) n)).flatten ++ (List.replicate k (tblPut ff.degree (degreeToW ff.degree) n)).flatten) :=
  traces_before (traces_times (njtInit_traces _ _) _) (Traces.congr (traces_before (traces_times (njtFree_traces _ _) _) (traces_pure a)) (List.append_nil _))

theorem tables_size (e w k n : Nat) : inUse ((List.replicate k (tblGet e w n)).flatten ++ (List.replicate k (tblPut e w n)).flatten) = 0 ∧
    peak ((List.replicate k (tblGet e w n)).flatten ++ (List.replicate k (tblPut e w n)).flatten) = (k * tableWords e w n : Nat) := by
  have e1 : peak (List.replicate k (tblGet e w n)).flatten = inUse (List.replicate k (tblGet e w n)).flatten := by
    apply peak_gets
    intro x hx
    obtain ⟨l, hl, hx⟩ := List.mem_flatten.1 hx
    rw [List.eq_of_mem_replicate hl] at hx
    simp only [tblGet, List.mem_cons, List.not_mem_nil, or_false] at hx
    rcases hx with rfl | rfl | rfl <;> (simp only [Event.delta]; exact Int.natCast_nonneg _)
  have e2 : peak (List.replicate k (tblPut e w n)).flatten = 0 := by
    apply peak_puts
    intro x hx
    obtain ⟨l, hl, hx⟩ := List.mem_flatten.1 hx
    rw [List.eq_of_mem_replicate hl] at hx
    simp only [tblPut, List.mem_cons, List.not_mem_nil, or_false] at hx
    rcases hx with rfl | rfl | rfl <;> (simp only [Event.delta]; exact Int.neg_nonpos_of_nonneg (Int.natCast_nonneg _))
  have h0 : (0 : Int) ≤ k * tableWords e w n := by positivity
  rw [inUse_append, peak_append, e2, e1, inUse_times, inUse_times, inUse_tblGet, inUse_tblPut]
  push_cast
  constructor
  · ring
  · omega

/-- **C83** `mzed_echelonize_newton_john(A,full)` takes exactly six tables, whatever `k` it chooses, and gives them back. -/
theorem C83_echelonize_newton_john (cb : Codebook) (optK : Nat) (small : Bool) (A : Mzed) (full : Bool) :
    ∃ l, Balanced (mzedEchelonizeNewtonJohnT cb optK small A full) (some (mzedEchelonizeNewtonJohn cb optK small A full)) l ∧
      peak l = 6 * (tableWords A.ff.degree (degreeToW A.ff.degree) A.ncols : Int) := by
  obtain ⟨s1, s2⟩ := tables_size A.ff.degree (degreeToW A.ff.degree) 6 A.ncols
  exact ⟨_, ⟨tables_traces A.ff 6 A.ncols _, s1⟩, by rw [s2]; push_cast; rfl⟩

/-- **C83** `mzed_ple_newton_john(A,P,Q)` takes exactly one table. -/
theorem C83_ple_newton_john (cb : Codebook) (A : Mzed) (P Q : Nat → Nat) :
    ∃ l, Balanced (mzedPleNewtonJohnT cb A P Q) (some (mzedPleNewtonJohn cb A P Q)) l ∧ peak l = (tableWords A.ff.degree (degreeToW A.ff.degree) A.ncols : Int) := by
  obtain ⟨s1, s2⟩ := tbl_size A.ff.degree (degreeToW A.ff.degree) A.ncols
  exact ⟨_, ⟨pleNj_traces cb A P Q, s1⟩, s2⟩

/-- **C83** `mzed_trsm_lower_left_newton_john(L,B)` and `mzed_trsm_upper_left_newton_john(U,B)` take exactly one table, and nothing up to `2^e` rows. -/
theorem C83_trsm_newton_john (cb : Codebook) (A B : Mzed) (hf : A.ff = B.ff) :
    ∃ l, Balanced (mzedTrsmLowerLeftNewtonJohnT cb A B) (some (mzedTrsmLowerLeftNewtonJohn cb A B)) l ∧
      Balanced (mzedTrsmUpperLeftNewtonJohnT cb A B) (some (mzedTrsmUpperLeftNewtonJohn cb A B)) l ∧
      peak l = if A.nrows ≤ 2 ^ B.ff.degree then 0 else (tableWords B.ff.degree (degreeToW B.ff.degree) B.ncols : Int) := by
  unfold mzedTrsmLowerLeftNewtonJohnT mzedTrsmUpperLeftNewtonJohnT
  rw [hf]
  by_cases h : 2 ^ B.ff.degree ≥ A.nrows
  · rw [if_pos h, if_pos h, if_pos h]
    have h' : 2 ^ A.ff.degree ≥ A.nrows := by rw [hf]; exact h
    have e1 : mzedTrsmLowerLeftNewtonJohn cb A B = mzedTrsmLowerLeftNaive A B := if_pos h'
    have e2 : mzedTrsmUpperLeftNewtonJohn cb A B = mzedTrsmUpperLeftNaive A B := if_pos h'
    rw [e1, e2]
    exact ⟨[], ⟨traces_pure _, rfl⟩, ⟨traces_pure _, rfl⟩, rfl⟩
  · rw [if_neg h, if_neg h, if_neg h]
    obtain ⟨s1, s2⟩ := tbl_size B.ff.degree (degreeToW B.ff.degree) B.ncols
    refine ⟨_, ⟨?_, s1⟩, ⟨?_, s1⟩, s2⟩
    · exact traces_before (njtInit_traces _ _) (Traces.congr (traces_before (njtFree_traces _ _) (traces_pure _)) (List.append_nil _))
    · exact traces_before (njtInit_traces _ _) (Traces.congr (traces_before (njtFree_traces _ _) (traces_pure _)) (List.append_nil _))

/-- **C83** `mzed_invert_newton_john(B,A)`, `B` given, takes the identity and `A` with the identity beside it, and six tables for rows of twice the length. -/
theorem C83_invert (cb : Codebook) (optK : Nat) (small : Bool) (A : Mzed) :
    ∃ l, Traces (mzedInvertNewtonJohnT cb optK small A) (mzedInvertNewtonJohn? cb optK small A) l ∧ inUse l = 0 ∧
      peak l = (packedWords (degreeToW A.ff.degree) A.nrows A.ncols + packedWords (degreeToW A.ff.degree) A.nrows (A.ncols + A.ncols) +
        6 * tableWords A.ff.degree (degreeToW A.ff.degree) (A.ncols + A.ncols) : Nat) := by
  obtain ⟨s1, s2⟩ := tables_size A.ff.degree (degreeToW A.ff.degree) 6 (A.ncols + A.ncols)
  refine ⟨[.get (packedWords (degreeToW A.ff.degree) A.nrows A.ncols)] ++ ([.get (packedWords (degreeToW A.ff.degree) A.nrows (A.ncols + A.ncols))] ++
    (((List.replicate 6 (tblGet A.ff.degree (degreeToW A.ff.degree) (A.ncols + A.ncols))).flatten ++
      (List.replicate 6 (tblPut A.ff.degree (degreeToW A.ff.degree) (A.ncols + A.ncols))).flatten) ++
    ([.put (packedWords (degreeToW A.ff.degree) A.nrows A.ncols)] ++ [.put (packedWords (degreeToW A.ff.degree) A.nrows (A.ncols + A.ncols))]))), ?_, ?_, ?_⟩
  · unfold mzedInvertNewtonJohnT mzedInitT
    unfold mzedInvertNewtonJohn?
    simp only [bind_assoc, pure_bind]
    have hn : (mzedSetUi (mzedInit A.ff A.fid A.nrows A.ncols) 1#64).ncols = A.ncols := by
      unfold mzedSetUi
      dsimp only
      rw [if_neg (by decide)]
      exact forN_inv (fun _ (B : Mzed) => B.ncols = A.ncols) _ _ _ rfl fun _ _ _ h => h
    generalize mzedSetUi (mzedInit A.ff A.fid A.nrows A.ncols) 1#64 = I at *
    have hT : (mzedConcat A I).ncols = A.ncols + A.ncols := by rw [← hn]; exact congrArg (· + _) hn.symm
    have hF : (mzedConcat A I).ff = A.ff := rfl
    unfold mzedEchelonizeNewtonJohnT
    rw [hT, hF, hn]
    refine traces_before (traces_get _) (traces_before (traces_get _) ?_)
    suffices hs : Traces _ ((some (mzedEchelonizeNewtonJohn cb optK small (mzedConcat A I) true)).bind
        fun T => if mzedEq I (mzedWindow T.1 0 0 A.nrows A.ncols) then
          some (mzedSubmatrix T.1 0 A.ncols A.nrows T.1.ncols) else none) _ from hs
    refine traces_bind (tables_traces A.ff 6 (A.ncols + A.ncols) _) fun T _ => traces_before (traces_put _) ?_
    exact Traces.congr (traces_after (traces_inPlace _) (traces_put _)) (List.nil_append _)
  · simp only [inUse_append, s1]
    simp only [inUse, Event.delta, List.map_cons, List.map_nil, List.sum_cons, List.sum_nil]
    omega
  · generalize (List.replicate 6 (tblGet A.ff.degree (degreeToW A.ff.degree) (A.ncols + A.ncols))).flatten ++
      (List.replicate 6 (tblPut A.ff.degree (degreeToW A.ff.degree) (A.ncols + A.ncols))).flatten = l at *
    rw [peak_append, peak_append, peak_append, peak_append, s1, s2]
    simp only [peak, inUse, Event.delta, List.map_cons, List.map_nil, List.sum_cons, List.sum_nil]
    omega

end

/-! ### Decomposition and elimination -/

theorem _root_.M4rie.Gives.map {α β : Type} {x : Traced α} {o : Option α} {p : Nat} (h : Gives x o p) (f : α → β) : Gives (x >>= fun a => pure (f a)) (o.map f) p := by
  obtain ⟨l, h1, h2, h3⟩ := h
  exact ⟨l, traces_map h1 f, h2, h3⟩

theorem perms_size (a b : Nat) {l : List Event} (h : inUse l = 0) :
    inUse ([.get a] ++ ([.get b] ++ (l ++ ([.put a] ++ [.put b])))) = 0 ∧ peak ([.get a] ++ ([.get b] ++ (l ++ ([.put a] ++ [.put b])))) = (a + b : Nat) + peak l := by
  have := peak_nonneg l
  constructor
  · simp only [inUse_append, h]
    simp only [inUse, Event.delta, List.map_cons, List.map_nil, List.sum_cons, List.sum_nil]
    omega
  · rw [peak_append, peak_append, peak_append, peak_append, h]
    simp only [peak, inUse, Event.delta, List.map_cons, List.map_nil, List.sum_cons, List.sum_nil]
    omega

theorem perms_traces (a b : Nat) {α : Type} {x : Traced α} {o : Option α} {l : List Event} (h : Traces x o l) :
    Traces (getBlock a >>= fun _ => getBlock b >>= fun _ => x >>= fun R => putBlock a >>= fun _ => putBlock b >>= fun _ => pure R) o
      ([.get a] ++ ([.get b] ++ (l ++ ([.put a] ++ [.put b])))) := by
  have := traces_after (y := putBlock a >>= fun _ => putBlock b) (l' := [.put a] ++ [.put b]) h (traces_before (traces_put a) (traces_put b))
  simp only [bind_assoc] at this
  exact traces_before (traces_get a) (traces_before (traces_get b) this)

section
variable {env : PleEnv} (hc : CompressOk env.compress) (hcb : env.cb.Ok ff.degree)
include hc hcb

theorem slicePle_space (X : Mat ff) (P Q : Nat → Nat) : ∃ l, Balanced (mzdSlicePleT env X.spack P Q) (mzdSlicePle? env X.spack P Q) l ∧
    peak l ≤ (pleSpace ff.degree X.nrows X.ncols : Nat) ∧ (X.ncols ≤ 64 ∨ env.small X.nrows X.ncols = true → peak l = (pleSpace ff.degree X.nrows X.ncols : Nat)) := by
  by_cases h : X.ncols ≤ 64 ∨ env.small X.nrows X.ncols = true
  · obtain ⟨s1, s2⟩ := pleBaseTrace_size ff.degree X.nrows X.ncols
    refine ⟨_, ⟨?_, s1⟩, s2.le, fun _ => s2⟩
    unfold mzdSlicePleT mzdSlicePle?
    rw [mzdSlicePleFT.eq_def, mzdSlicePleF.eq_def]
    dsimp only
    have h' : X.spack.ncols ≤ 64 ∨ env.small X.spack.nrows X.spack.ncols = true := h
    rw [if_pos h', if_pos h']
    exact pleBase_traces env.cb X P Q
  · obtain ⟨l, a1, a2, a3⟩ := slicePleF_gives hc hcb (X.ncols + 1) X P Q (Nat.lt_succ_self _)
    exact ⟨l, ⟨a1, a2⟩, a3, fun hh => absurd hh h⟩

/-- **C83** `_mzd_slice_ple(A,P,Q,cutoff)`, however deep the recursion goes: at most a packed copy of `A` and a Newton-John table, and exactly this when `A` is decomposed directly; `res` is what C33
is about. -/
theorem C83_slice_ple {A : Slice} {M : Nat → Nat → Elem ff} (h : SRep A M) (P Q : Nat → Nat) :
    ∃ res l, mzdSlicePle? env A P Q = some res ∧ Balanced (mzdSlicePleT env A P Q) (some res) l ∧
      peak l ≤ (packedWords (degreeToW ff.degree) A.nrows A.ncols + tableWords ff.degree (degreeToW ff.degree) A.ncols : Nat) ∧
      (A.ncols ≤ 64 ∨ env.small A.nrows A.ncols = true →
        peak l = (packedWords (degreeToW ff.degree) A.nrows A.ncols + tableWords ff.degree (degreeToW ff.degree) A.ncols : Nat)) := by
  obtain ⟨Z, P1, Q1, r, e, -⟩ := mzdSlicePle_spack hc hcb (⟨A.nrows, A.ncols, A.fid, M⟩ : Mat ff) P Q
  obtain ⟨l, h1, h2, h3⟩ := slicePle_space hc hcb (⟨A.nrows, A.ncols, A.fid, M⟩ : Mat ff) P Q
  rw [e] at h1
  rw [← h.eq_spack'] at h1 e
  exact ⟨_, l, e, h1, h2, h3⟩

/-- **C83** `_mzd_slice_pluq(A,P,Q,cutoff)`: the same. -/
theorem C83_slice_pluq {A : Slice} {M : Nat → Nat → Elem ff} (h : SRep A M) (P Q : Nat → Nat) :
    ∃ res l, mzdSlicePluq? env A P Q = some res ∧ Balanced (mzdSlicePluqT env A P Q) (some res) l ∧
      peak l ≤ (packedWords (degreeToW ff.degree) A.nrows A.ncols + tableWords ff.degree (degreeToW ff.degree) A.ncols : Nat) ∧
      (A.ncols ≤ 64 ∨ env.small A.nrows A.ncols = true →
        peak l = (packedWords (degreeToW ff.degree) A.nrows A.ncols + tableWords ff.degree (degreeToW ff.degree) A.ncols : Nat)) := by
  obtain ⟨res, l, e, ⟨h1, h2⟩, h3, h4⟩ := C83_slice_ple hc hcb h P Q
  unfold mzdSlicePluq?
  rw [e]
  exact ⟨_, l, rfl, ⟨traces_map h1 _, h2⟩, h3, h4⟩

/-- **C83** `_mzed_ple(A,P,Q,cutoff)`: slices of `A` and what decomposing them takes, and for a narrow or small matrix exactly a table. -/
theorem C83_ple {A : Mzed} {M : Nat → Nat → Elem ff} (h : Rep A M) (P Q : Nat → Nat) :
    ∃ res l, mzedPle? env A P Q = some res ∧ Balanced (mzedPleT env A P Q) (some res) l ∧
      peak l ≤ (slicedWords ff.degree A.nrows A.ncols + packedWords (degreeToW ff.degree) A.nrows A.ncols + tableWords ff.degree (degreeToW ff.degree) A.ncols : Nat) ∧
      (A.ncols ≤ 64 ∨ env.small A.nrows A.ncols = true → peak l = (tableWords ff.degree (degreeToW ff.degree) A.ncols : Nat)) := by
  obtain ⟨res, e, -⟩ := C33_ple hc hcb h P Q
  by_cases hb : 64 < A.ncols ∧ ¬ env.small A.nrows A.ncols = true
  · obtain ⟨l, ⟨h1, h2⟩, h3, -⟩ := slicePle_space hc hcb (⟨A.nrows, A.ncols, A.fid, M⟩ : Mat ff).trim P Q
    obtain ⟨s1, s2⟩ := holdN_size ff.degree (gf2Words A.nrows A.ncols) h2
    refine ⟨res, _, e, ⟨?_, s1⟩, ?_, fun hh => absurd hh (by
      rintro (hh | hh)
      · omega
      · exact hb.2 hh)⟩
    · rw [← e]
      unfold mzedPleT mzedPle?
      rw [if_pos hb, if_pos hb]
      rw [h.eq_pack', sliceNew_spack]
      refine traces_bind (o := some _) (sliceNewT_traces _) (g := fun a => (mzdSlicePle? env a P Q).bind fun p =>
        (mzedCling? (⟨A.nrows, A.ncols, A.fid, M⟩ : Mat ff).pack p.1).map fun R => (R, p.2.1, p.2.2.1, p.2.2.2)) fun a ha => ?_
      cases ha
      refine traces_bind h1 fun p _ => ?_
      rw [Option.map_eq_bind]
      refine Traces.congr (traces_bind (traces_inPlace _) fun R _ =>
        Traces.congr (traces_before (traces_times (traces_put (gf2Words A.nrows A.ncols)) ff.degree) (traces_pure _)) (List.append_nil _)) (List.nil_append _)
    · rw [s2]
      unfold slicedWords
      unfold pleSpace at h3
      push_cast at h3 ⊢
      have := h3
      rw [show (⟨A.nrows, A.ncols, A.fid, M⟩ : Mat ff).trim.nrows = A.nrows from rfl, show (⟨A.nrows, A.ncols, A.fid, M⟩ : Mat ff).trim.ncols = A.ncols from rfl] at this
      omega
  · obtain ⟨s1, s2⟩ := tbl_size ff.degree (degreeToW ff.degree) A.ncols
    refine ⟨res, _, e, ⟨?_, s1⟩, ?_, fun _ => s2⟩
    · rw [← e]
      unfold mzedPleT mzedPle?
      rw [if_neg hb, if_neg hb]
      have := pleNj_traces env.cb A P Q
      rwa [h.ffEq] at this
    · rw [s2]
      push_cast
      have : (0 : Int) ≤ packedWords (degreeToW ff.degree) A.nrows A.ncols := Int.natCast_nonneg _
      have : (0 : Int) ≤ slicedWords ff.degree A.nrows A.ncols := Int.natCast_nonneg _
      omega

theorem sliceEchelonizePle_space (X : Mat ff) (full : Bool) :
    ∃ l, Balanced (mzdSliceEchelonizePleT env X.spack full) (mzdSliceEchelonizePle? env X.spack full) l ∧
      peak l ≤ (permWords X.nrows + permWords X.ncols + pleSpace ff.degree X.nrows X.ncols + (if full then asideSpace ff.degree X.nrows else 0) : Nat) ∧
      (full = false → X.ncols ≤ 64 ∨ env.small X.nrows X.ncols = true →
        peak l = (permWords X.nrows + permWords X.ncols + pleSpace ff.degree X.nrows X.ncols : Nat)) := by
  unfold mzdSliceEchelonizePleT mzdSliceEchelonizePle?
  dsimp only
  obtain ⟨l0, ⟨h1, h2⟩, h3, h4⟩ := slicePle_space hc hcb X (mzpInit X.spack.nrows).val (mzpInit X.spack.ncols).val
  obtain ⟨Z, P, Q, r, e1, s1, d1, f1, -⟩ := mzdSlicePle_spack hc hcb X (mzpInit X.spack.nrows).val (mzpInit X.spack.ncols).val
  cases full with
  | false =>
    simp only [Bool.false_eq_true, if_false]
    obtain ⟨t1, t2⟩ := perms_size (permWords X.nrows) (permWords X.ncols) h2
    refine ⟨_, ⟨?_, t1⟩, ?_, fun _ hh => ?_⟩
    · have := perms_traces (permWords X.nrows) (permWords X.ncols)
        (traces_map (traces_map h1 fun p => (echPleClear p.1 p.2.2.1 p.2.2.2, p.2.2.2)) fun p =>
        (if p.2 ≠ p.1.nrows then sliceSetWindow p.1 p.2 0 (mzdSliceSetUi (mzdSliceWindow p.1 p.2 0 p.1.nrows p.1.ncols) 0#64) else p.1, p.2))
      simp only [bind_assoc, pure_bind] at this ⊢
      exact this
    · rw [t2]; push_cast at h3 ⊢; omega
    · rw [t2, h4 hh]; push_cast; ring
  | true =>
    simp only [if_true]
    have key : Gives (mzdSlicePluqT env X.spack (mzpInit X.spack.nrows).val (mzpInit X.spack.ncols).val >>= fun p =>
        echPleSolveT env.cb p.1 p.2.2.2 >>= fun A =>
        pure (if p.2.2.2 ≠ 0 then sliceSetWindow A 0 0 (mzdSliceApplyPRight (mzdSliceWindow A 0 0 p.2.2.2 A.ncols) ⟨A.ncols, p.2.2.1⟩) else A, p.2.2.2))
        ((mzdSlicePluq? env X.spack (mzpInit X.spack.nrows).val (mzpInit X.spack.ncols).val).bind fun p =>
        (echPleSolve? env.cb p.1 p.2.2.2).map fun A =>
        (if p.2.2.2 ≠ 0 then sliceSetWindow A 0 0 (mzdSliceApplyPRight (mzdSliceWindow A 0 0 p.2.2.2 A.ncols) ⟨A.ncols, p.2.2.1⟩) else A, p.2.2.2))
        (pleSpace ff.degree X.nrows X.ncols + asideSpace ff.degree X.nrows) := by
      have g1 : Gives (mzdSlicePluqT env X.spack (mzpInit X.spack.nrows).val (mzpInit X.spack.ncols).val)
          (mzdSlicePluq? env X.spack (mzpInit X.spack.nrows).val (mzpInit X.spack.ncols).val) (pleSpace ff.degree X.nrows X.ncols) :=
        Gives.map ⟨l0, h1, h2, h3⟩ _
      refine Gives.bind (g1.mono (Nat.le_add_right _ _)) fun p hp => ?_
      unfold mzdSlicePluq? at hp
      rw [e1, Option.map_some] at hp
      obtain rfl := Option.some.inj hp
      dsimp only
      refine Gives.map ?_ _
      have hV : ∀ V : Slice, V.ff = ff → V.depth = ff.degree → V.nrows = X.nrows → V.ncols = X.ncols →
          Gives (echPleSolveT env.cb V r) (echPleSolve? env.cb V r) (pleSpace ff.degree X.nrows X.ncols + asideSpace ff.degree X.nrows) := by
        intro V v1 v2 v3 v4
        rw [← v3, ← v4]
        exact echPleSolve_gives env.cb v1 v2 (by rw [v3]; exact d1.le) (by rw [v4]; exact d1.rle)
      have n1 : Z.spack.nrows = X.nrows := s1.nrows
      have n2 : Z.spack.ncols = X.ncols := s1.ncols
      split_ifs
      · exact hV _ rfl rfl n1 n2
      · exact hV _ rfl rfl n1 n2
    obtain ⟨l, k1, k2, k3⟩ := key
    obtain ⟨t1, t2⟩ := perms_size (permWords X.nrows) (permWords X.ncols) k2
    refine ⟨_, ⟨?_, t1⟩, ?_, fun hh => nomatch hh⟩
    · have := perms_traces (permWords X.nrows) (permWords X.ncols) (traces_map k1 fun p =>
        (if p.2 ≠ p.1.nrows then sliceSetWindow p.1 p.2 0 (mzdSliceSetUi (mzdSliceWindow p.1 p.2 0 p.1.nrows p.1.ncols) 0#64) else p.1, p.2))
      simp only [bind_assoc, pure_bind] at this ⊢
      exact this
    · rw [t2]; push_cast at k3 ⊢; omega

/-- **C83** `mzd_slice_echelonize_ple(A,full)`: two permutations, a packed copy of `A` and a table, and for the reduced form at most `w + e` words for each row besides. -/
theorem C83_slice_echelonize_ple {A : Slice} {M : Nat → Nat → Elem ff} (h : SRep A M) (full : Bool) :
    ∃ res l, mzdSliceEchelonizePle? env A full = some res ∧ Balanced (mzdSliceEchelonizePleT env A full) (some res) l ∧
      peak l ≤ (permWords A.nrows + permWords A.ncols + (packedWords (degreeToW ff.degree) A.nrows A.ncols + tableWords ff.degree (degreeToW ff.degree) A.ncols) +
        (if full then A.nrows * (degreeToW ff.degree + ff.degree) else 0) : Nat) ∧
      (full = false → A.ncols ≤ 64 ∨ env.small A.nrows A.ncols = true →
        peak l = (permWords A.nrows + permWords A.ncols + (packedWords (degreeToW ff.degree) A.nrows A.ncols + tableWords ff.degree (degreeToW ff.degree) A.ncols) : Nat)) := by
  obtain ⟨R, r', e, -⟩ := mzdSliceEchelonizePle_spack hc hcb (⟨A.nrows, A.ncols, A.fid, M⟩ : Mat ff) full
  obtain ⟨l, h1, h2, h3⟩ := sliceEchelonizePle_space hc hcb (⟨A.nrows, A.ncols, A.fid, M⟩ : Mat ff) full
  rw [e] at h1
  rw [← h.eq_spack'] at h1 e
  exact ⟨_, l, e, h1, h2, h3⟩

/-- **C83** `mzed_echelonize_ple(A,full)`: slices of `A` besides ("this function uses more memory", echelonform.h). -/
theorem C83_echelonize_ple {A : Mzed} {M : Nat → Nat → Elem ff} (h : Rep A M) (full : Bool) :
    ∃ res l, mzedEchelonizePle? env A full = some res ∧ Balanced (mzedEchelonizePleT env A full) (some res) l ∧
      peak l ≤ (slicedWords ff.degree A.nrows A.ncols + (permWords A.nrows + permWords A.ncols +
        (packedWords (degreeToW ff.degree) A.nrows A.ncols + tableWords ff.degree (degreeToW ff.degree) A.ncols) +
        (if full then A.nrows * (degreeToW ff.degree + ff.degree) else 0)) : Nat) ∧
      (full = false → A.ncols ≤ 64 ∨ env.small A.nrows A.ncols = true →
        peak l = (slicedWords ff.degree A.nrows A.ncols + (permWords A.nrows + permWords A.ncols +
          (packedWords (degreeToW ff.degree) A.nrows A.ncols + tableWords ff.degree (degreeToW ff.degree) A.ncols)) : Nat)) := by
  obtain ⟨R, M', piv, e, -⟩ := C36_echelonize_ple hc hcb h full
  obtain ⟨l, ⟨h1, h2⟩, h3, h4⟩ := sliceEchelonizePle_space hc hcb (⟨A.nrows, A.ncols, A.fid, M⟩ : Mat ff).trim full
  obtain ⟨s1, s2⟩ := holdN_size ff.degree (gf2Words A.nrows A.ncols) h2
  rw [show (⟨A.nrows, A.ncols, A.fid, M⟩ : Mat ff).trim.nrows = A.nrows from rfl, show (⟨A.nrows, A.ncols, A.fid, M⟩ : Mat ff).trim.ncols = A.ncols from rfl] at h3 h4
  unfold pleSpace at h3 h4
  refine ⟨_, _, e, ⟨?_, s1⟩, ?_, fun hf hh => ?_⟩
  · rw [← e]
    unfold mzedEchelonizePleT mzedEchelonizePle?
    rw [h.eq_pack', sliceNew_spack]
    refine traces_bind (o := some _) (sliceNewT_traces _) (g := fun a => (mzdSliceEchelonizePle? env a full).bind fun p =>
      (mzedCling? (⟨A.nrows, A.ncols, A.fid, M⟩ : Mat ff).pack p.1).map fun R => (R, p.2)) fun a ha => ?_
    cases ha
    refine traces_bind h1 fun p _ => ?_
    rw [Option.map_eq_bind]
    exact Traces.congr (traces_bind (traces_inPlace _) fun R _ =>
      Traces.congr (traces_before (traces_times (traces_put (gf2Words A.nrows A.ncols)) ff.degree) (traces_pure _)) (List.append_nil _)) (List.nil_append _)
  · rw [s2]
    unfold slicedWords
    unfold asideSpace at h3
    push_cast at h3 ⊢
    omega
  · rw [s2, h4 hf hh]
    unfold slicedWords
    push_cast
    rfl

/-- **C83** the note in echelonform.h, first half: `mzed_echelonize_ple(A,full)` takes exactly as much as `mzd_slice_echelonize_ple(a,full)` for the slices `a` of `A`, and these slices besides. -/
theorem C83_note_slice {A : Mzed} {M : Nat → Nat → Elem ff} (h : Rep A M) (full : Bool) :
    ∃ a l l', mzedSliceNew? A = some a ∧ Balanced (mzdSliceEchelonizePleT env a full) (mzdSliceEchelonizePle? env a full) l ∧
      Balanced (mzedEchelonizePleT env A full) (mzedEchelonizePle? env A full) l' ∧ peak l' = slicedWords ff.degree A.nrows A.ncols + peak l := by
  obtain ⟨l, ⟨h1, h2⟩, -⟩ := sliceEchelonizePle_space hc hcb (⟨A.nrows, A.ncols, A.fid, M⟩ : Mat ff).trim full
  obtain ⟨s1, s2⟩ := holdN_size ff.degree (gf2Words A.nrows A.ncols) h2
  refine ⟨_, l, _, ?_, ⟨h1, h2⟩, ⟨?_, s1⟩, s2⟩
  · rw [h.eq_pack']
    exact sliceNew_spack _
  · unfold mzedEchelonizePleT mzedEchelonizePle?
    rw [h.eq_pack', sliceNew_spack]
    refine traces_bind (o := some _) (sliceNewT_traces _) (g := fun a => (mzdSliceEchelonizePle? env a full).bind fun p =>
      (mzedCling? (⟨A.nrows, A.ncols, A.fid, M⟩ : Mat ff).pack p.1).map fun R => (R, p.2)) fun a ha => ?_
    cases ha
    refine traces_bind h1 fun p _ => ?_
    rw [Option.map_eq_bind]
    exact Traces.congr (traces_bind (traces_inPlace _) fun R _ =>
      Traces.congr (traces_before (traces_times (traces_put (gf2Words A.nrows A.ncols)) ff.degree) (traces_pure _)) (List.append_nil _)) (List.nil_append _)

omit hc hcb in
theorem ple_lt_nj (ff : Gf2e) [IsField ff] {m q : Nat} (hm : m ≤ 2 ^ ff.degree) (hq : 0 < q) :
    slicedWords ff.degree m (64 * q) + (permWords m + permWords (64 * q) +
      (packedWords (degreeToW ff.degree) m (64 * q) + tableWords ff.degree (degreeToW ff.degree) (64 * q)) + m * (degreeToW ff.degree + ff.degree)) <
    6 * tableWords ff.degree (degreeToW ff.degree) (64 * q) := by
  have t2 := IsField.two_le (ff := ff)
  have hw : ff.degree ≤ degreeToW ff.degree ∧ (3 ≤ ff.degree → 4 ≤ degreeToW ff.degree) ∧ (ff.degree = 2 → degreeToW ff.degree = 2) := by
    have t16 := (Fact.out : FFOK ff).min.e16
    generalize ff.degree = e at *
    interval_cases e <;> decide
  generalize ff.degree = e at *
  generalize hwe : degreeToW e = w at *
  obtain ⟨w1, w2, w3⟩ := hw
  have e1 : (w * (64 * q) + 63) / 64 = w * q := by
    rw [show w * (64 * q) = 64 * (w * q) by ring]
    omega
  have e2 : (64 * q + 63) / 64 = q := by omega
  unfold slicedWords gf2Words permWords tableWords packedWords
  rw [e1, e2]
  rcases Nat.lt_or_ge e 3 with h3 | h3
  · obtain rfl : e = 2 := by omega
    rw [w3 rfl]
    norm_num at hm ⊢
    interval_cases m <;> omega
  · have h4 := w2 h3
    have ht : 8 ≤ 2 ^ e := Nat.pow_le_pow_right (show 0 < 2 by norm_num) h3 |>.trans' (by norm_num)
    generalize 2 ^ e = t at *
    have b1 : e * (m * q) ≤ t * (w * q) := by
      calc e * (m * q) = m * (e * q) := by ring
        _ ≤ t * (w * q) := Nat.mul_le_mul hm (Nat.mul_le_mul_right _ w1)
    have b2 : m * (w * q) ≤ t * (w * q) := Nat.mul_le_mul_right _ hm
    have b3 : m * (w + e) ≤ 2 * (t * (w * q)) := by
      calc m * (w + e) ≤ t * (2 * (w * q)) := Nat.mul_le_mul hm (by have := Nat.le_mul_of_pos_right w hq; omega)
        _ = 2 * (t * (w * q)) := by ring
    have b4 : 32 * q ≤ t * (w * q) := by
      calc 32 * q = 8 * (4 * q) := by ring
        _ ≤ t * (w * q) := Nat.mul_le_mul ht (Nat.mul_le_mul_right _ h4)
    have b5 : 0 ≤ e * (w * q) := Nat.zero_le _
    omega

/-- **C83** the second half of the note is wrong ("it uses more memory than using mzed_echelonize_newton_john()"): for at most `2^e` rows (and a multiple of 64 columns) `mzed_echelonize_ple` takes less
than `mzed_echelonize_newton_john`, reduced or not. -/
theorem C83_violation (optK : Nat) (small : Bool) {A : Mzed} {M : Nat → Nat → Elem ff} (h : Rep A M) (full : Bool) (hm : A.nrows ≤ 2 ^ ff.degree) (hn : 64 ∣ A.ncols)
    (hn0 : 0 < A.ncols) :
    ∃ l l', Balanced (mzedEchelonizePleT env A full) (mzedEchelonizePle? env A full) l ∧
      Balanced (mzedEchelonizeNewtonJohnT env.cb optK small A full) (some (mzedEchelonizeNewtonJohn env.cb optK small A full)) l' ∧ peak l < peak l' := by
  obtain ⟨l', h1, h2⟩ := C83_echelonize_newton_john env.cb optK small A full
  obtain ⟨res, l, e, h3, h4, -⟩ := C83_echelonize_ple hc hcb h full
  refine ⟨l, l', by rw [e]; exact h3, h1, ?_⟩
  obtain ⟨q, hq⟩ := hn
  rw [h2, h.ffEq]
  have key := ple_lt_nj ff (q := q) hm (by omega)
  rw [← hq] at key
  refine lt_of_le_of_lt (h4.trans ?_) (show ((_ : Nat) : Int) < _ from by exact_mod_cast key)
  have : (if full = true then A.nrows * (degreeToW ff.degree + ff.degree) else 0) ≤ A.nrows * (degreeToW ff.degree + ff.degree) := by split_ifs <;> simp
  exact_mod_cast Nat.add_le_add_left (Nat.add_le_add_left this _) _

/-- **C83** `mzed_echelonize(A,full)`: nothing for fewer rows than the degree of the field, six tables for a matrix of medium size and otherwise as `mzed_echelonize_ple`; the result is that of C53. -/
theorem C83_echelonize (optK : Nat) (smallNj : Bool) (medium : Nat → Nat → Bool) {A : Mzed} {M : Nat → Nat → Elem ff} (h : Rep A M) (full : Bool) :
    ∃ res l, mzedEchelonize? env optK smallNj medium A full = some res ∧ Balanced (mzedEchelonizeT env optK smallNj medium A full) (some res) l ∧
      (A.nrows < ff.degree → peak l = 0) ∧
      (ff.degree ≤ A.nrows → medium A.nrows A.ncols = true → peak l = 6 * (tableWords ff.degree (degreeToW ff.degree) A.ncols : Int)) ∧
      (ff.degree ≤ A.nrows → medium A.nrows A.ncols = false → peak l ≤ (slicedWords ff.degree A.nrows A.ncols + (permWords A.nrows + permWords A.ncols +
        (packedWords (degreeToW ff.degree) A.nrows A.ncols + tableWords ff.degree (degreeToW ff.degree) A.ncols) +
        (if full then A.nrows * (degreeToW ff.degree + ff.degree) else 0)) : Nat)) := by
  have hdeg : A.ff.degree = ff.degree := by rw [h.ffEq]
  unfold mzedEchelonize? mzedEchelonizeT
  rw [hdeg]
  by_cases c1 : ff.degree > A.nrows
  · rw [if_pos c1, if_pos c1]
    exact ⟨_, [], rfl, ⟨traces_pure _, rfl⟩, fun _ => rfl, fun hh => absurd hh (by omega), fun hh => absurd hh (by omega)⟩
  rw [if_neg c1, if_neg c1]
  by_cases c2 : medium A.nrows A.ncols = true
  · rw [if_pos c2, if_pos c2]
    obtain ⟨l, h1, h2⟩ := C83_echelonize_newton_john env.cb optK smallNj A full
    rw [hdeg] at h2
    exact ⟨_, l, rfl, h1, fun hh => absurd hh c1, fun _ _ => h2, fun _ hh => absurd (c2.symm.trans hh) (by decide)⟩
  · rw [if_neg c2, if_neg c2]
    obtain ⟨res, l, h1, h2, h3, -⟩ := C83_echelonize_ple hc hcb h full
    exact ⟨res, l, h1, h2, fun hh => absurd hh c1, fun _ hh => absurd hh c2, fun _ _ => h3⟩

end

/-- the hypotheses are met: 300 × 200 over GF(2^8), with the smallest cutoff (everything wider than 64 columns is split): a packed copy is 7500 words, a table 6728 -/
example : ∃ (ff : Gf2e) (_ : IsField ff) (A : Slice) (M : Nat → Nat → Elem ff), SRep A M ∧ CompressOk pleEnv0.compress ∧ A.nrows = 300 ∧ A.ncols = 200 ∧
    ∃ res l, mzdSliceEchelonizePle? pleEnv0 A true = some res ∧ Balanced (mzdSliceEchelonizePleT pleEnv0 A true) (some res) l ∧ peak l ≤ 19278 := by
  obtain ⟨ff, hF, h8⟩ := exists_aes
  let X : Mat ff := ⟨300, 200, 0, fun i j => if (i = 1 ∧ j = 0) ∨ (100 < j ∧ j = 150 + i) then 1 else 0⟩
  obtain ⟨res, l, e, b, p, -⟩ := C83_slice_echelonize_ple pleEnv0_ok (grayCode_ok _) (spack_rep X) true
  refine ⟨ff, hF, X.spack, _, spack_rep X, pleEnv0_ok, rfl, rfl, res, l, e, b, p.trans ?_⟩
  rw [h8]
  show ((permWords 300 + permWords 200 + (packedWords (degreeToW 8) 300 200 + tableWords 8 (degreeToW 8) 200) + (if true = true then 300 * (degreeToW 8 + 8) else 0) : Nat) : Int) ≤ 19278
  decide +kernel

/-- the hypotheses of `C83_violation` are met by matrices over GF(2^16) with up to 65536 rows -/
example : ∃ (ff : Gf2e) (_ : IsField ff) (A : Mzed) (M : Nat → Nat → Elem ff), Rep A M ∧ A.nrows = 10000 ∧ A.ncols = 6400 ∧ A.nrows ≤ 2 ^ ff.degree ∧ 64 ∣ A.ncols ∧
    0 < A.ncols ∧ CompressOk pleEnv0.compress ∧ pleEnv0.cb.Ok ff.degree := by
  obtain ⟨ff, hF, h16⟩ := exists_deg16
  let X : Mat ff := ⟨10000, 6400, 0, fun i j => if i = j then 1 else 0⟩
  refine ⟨ff, hF, X.pack, _, pack_rep X, rfl, rfl, ?_, ⟨100, rfl⟩, (by norm_num : 0 < 6400), pleEnv0_ok, grayCode_ok _⟩
  rw [h16]
  exact (by norm_num : 10000 ≤ 2 ^ 16)

end M4rie.Props
