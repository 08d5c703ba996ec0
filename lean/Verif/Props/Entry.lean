import Verif.Model.Entry
import Verif.Props.PleRec
import Verif.Props.TrsmRec
import Verif.Props.MzdPoly

/-!
# Properties C30, C33 (entry points with default arguments), C42 (randomisation), C57 (change of depth)
-/

namespace M4rie.Props
open M4rie M4rie.Spec

variable {ff : Gf2e} [IsField ff]

/-! ### C33: `mzd_slice_ple`, `mzd_slice_pluq`, `mzed_ple` -/

/-- **C33** `mzd_slice_ple(A,P,Q)` for permutations of the right lengths. -/
theorem C33_slice_ple_entry {compress} (hc : CompressOk compress) {cb : Codebook} (hcb : cb.Ok ff.degree) (l2 : Nat) {A : Slice}
    {M : Nat → Nat → Elem ff} (h : SRep A M) (P Q : Mzp) (hP : P.length = A.nrows) (hQ : Q.length = A.ncols) :
    ∃ R P' Q' r, mzdSlicePleTop? cb compress l2 A P Q = some (R, P', Q', r) ∧ P'.length = A.nrows ∧ Q'.length = A.ncols ∧
      SDecomposedPLE A M P.val Q.val (R, P'.val, Q'.val, r) := by
  obtain ⟨res, h1, h2⟩ := C33_slice_ple (env := pleEnvOf cb compress A.ff l2 0) hc hcb h P.val Q.val
  refine ⟨res.1, ⟨P.length, res.2.1⟩, ⟨Q.length, res.2.2.1⟩, res.2.2.2, ?_, hP, hQ, h2⟩
  unfold mzdSlicePleTop?
  rw [if_pos ⟨hP, hQ⟩, h1]
  rfl

/-- **C33** `mzd_slice_pluq(A,P,Q)` for permutations of the right lengths. -/
theorem C33_slice_pluq_entry {compress} (hc : CompressOk compress) {cb : Codebook} (hcb : cb.Ok ff.degree) (l2 : Nat) {A : Slice}
    {M : Nat → Nat → Elem ff} (h : SRep A M) (P Q : Mzp) (hP : P.length = A.nrows) (hQ : Q.length = A.ncols) :
    ∃ (R : Slice) (G : Nat → Nat → Elem ff) (P' Q' : Mzp),
      mzdSlicePluqTop? cb compress l2 A P Q = some (R, P', Q', rank A.nrows A.ncols M) ∧ P'.length = A.nrows ∧ Q'.length = A.ncols ∧
      SSameDim R A ∧ SRep R G ∧ IsPLUQ A.nrows A.ncols (rank A.nrows A.ncols M) M G P'.val Q'.val ∧
      (∀ i j, ¬ (i < A.nrows ∧ j < A.ncols) → G i j = M i j) := by
  obtain ⟨R, G, P', Q', h1, h2, h3, h4, h5, -⟩ := C33_slice_pluq (env := pleEnvOf cb compress A.ff l2 0) hc hcb h P.val Q.val
  refine ⟨R, G, ⟨P.length, P'⟩, ⟨Q.length, Q'⟩, ?_, hP, hQ, h2, h3, h4, h5⟩
  unfold mzdSlicePluqTop?
  rw [if_pos ⟨hP, hQ⟩, h1]
  rfl

/-- **C33** `mzed_ple(A,P,Q)`. -/
theorem C33_ple_entry {compress} (hc : CompressOk compress) {cb : Codebook} (hcb : cb.Ok ff.degree) (l2 : Nat) {A : Mzed}
    {M : Nat → Nat → Elem ff} (h : Rep A M) (P Q : Nat → Nat) :
    ∃ res, mzedPleTop? cb compress l2 A P Q = some res ∧ DecomposedPLE A M P Q res :=
  C33_ple (env := pleEnvOf cb compress A.ff l2 ((l2 * 4 : Nat) : Int)) hc hcb h P Q

/-- **C33** permutations of another length are rejected. -/
theorem C33_entry_dies {cb : Codebook} {compress} (l2 : Nat) (A : Slice) (P Q : Mzp) (h : ¬ (P.length = A.nrows ∧ Q.length = A.ncols)) :
    mzdSlicePleTop? cb compress l2 A P Q = none ∧ mzdSlicePluqTop? cb compress l2 A P Q = none :=
  ⟨if_neg h, if_neg h⟩

/-! ### C30: `mzed_trsm_lower_left` and its relatives -/

/-- **C30** the entry points without a cutoff. -/
theorem C30_entry {A B : Mzed} {MA MB : Nat → Nat → Elem ff} (hA : Rep A MA) (hB : Rep B MB) (hr : A.nrows = B.nrows) (hc : A.ncols = B.nrows)
    (hf : A.fid = B.fid) (hd : ∀ i, i < B.nrows → MA i i ≠ 0) (hn : 0 < B.ncols) {env : MulEnv} (henv : env.Ok ff.degree) :
    (∃ R, mzedTrsmLowerLeftTop? env A B = some R ∧ SolvedLower R B MA MB) ∧
    (∃ R, mzedTrsmUpperLeftTop? env A B = some R ∧ SolvedUpper R B MA MB) := C30_default hA hB hr hc hf hd hn henv

/-- **C30** the entry points without a cutoff, for sliced matrices. -/
theorem C30_slice_entry {A B : Slice} {MA MB : Nat → Nat → Elem ff} (hA : SRep A MA) (hB : SRep B MB) (hr : A.nrows = B.nrows)
    (hc : A.ncols = B.nrows) (hf : A.fid = B.fid) (hd : ∀ i, i < B.nrows → MA i i ≠ 0) (hn : 0 < B.ncols) {cb : Codebook}
    (hcb : cb.Ok ff.degree) :
    (∃ R, mzdSliceTrsmLowerLeftTop? cb A B = some R ∧ SSolvedLower R B MA MB) ∧
    (∃ R, mzdSliceTrsmUpperLeftTop? cb A B = some R ∧ SSolvedUpper R B MA MB) := C30_slice_default hA hB hr hc hd hn hcb hf

/-! ### C42: randomisation of sliced matrices and polynomials -/

theorem randomizeLoop_bit (nr nc : Nat) (rnd : Nat → Nat → Nat → Bool) (x : Nat → Nat → Nat → Word) : ∀ d k i j,
    bitAt (forN (fun k x => setSlice x k (mzdRandomize nr nc (x k) (rnd k))) d x k) i j =
      if k < d ∧ i < nr ∧ j < nc then rnd k i j else bitAt (x k) i j := by
  intro d k i j
  have := forN_slices (fun a k => mzdRandomize nr nc a (rnd k)) x d
  rw [this]
  show bitAt (if k < d then mzdRandomize nr nc (x k) (rnd k) else x k) i j = _
  by_cases hk : k < d
  · rw [if_pos hk]
    unfold mzdRandomize
    rw [bitAt_ofBits]
    simp [hk]
  · rw [if_neg hk, if_neg (fun h => hk h.1)]

/-- **C42** `mzd_slice_randomize(A)`: whatever bits the source of randomness delivers, bit `k` of the entry `(i,j)` is the bit delivered for
it, so every entry is a field element (and every matrix is a possible outcome); nothing outside the matrix changes. -/
theorem C42_slice_randomize {A : Slice} {M : Nat → Nat → Elem ff} (h : SRep A M) (rnd : Nat → Nat → Nat → Bool) :
    SSameDim (mzdSliceRandomize A rnd) A ∧ ∃ N : Nat → Nat → Elem ff,
      SRep (mzdSliceRandomize A rnd) (fun i j => if i < A.nrows ∧ j < A.ncols then N i j else M i j) ∧
      ∀ i j k, k < ff.degree → (N i j).1.getLsbD k = rnd k i j := by
  have hff : FFOK ff := Fact.out
  have h16 := hff.min.e16
  have hw : ∀ i j, ∃ x : Elem ff, ∀ k, x.1.getLsbD k = (decide (k < ff.degree) && rnd k i j) := by
    intro i j
    refine ⟨⟨wordOfBits (fun k => decide (k < ff.degree) && rnd k i j) 64, ?_⟩, ?_⟩
    · rw [← bitsLt_iff]
      intro k hk
      by_cases h64 : k < 64
      · rw [getLsbD_wordOfBits _ 64 le_rfl]
        simp; omega
      · exact BitVec.getLsbD_of_ge _ _ (by omega)
    · intro k
      show (wordOfBits (fun k => decide (k < ff.degree) && rnd k i j) 64).getLsbD k = _
      rw [getLsbD_wordOfBits _ 64 le_rfl]
      by_cases h64 : k < 64
      · simp [h64]
      · simp [h64, show ¬ k < ff.degree by omega]
  choose N hN using hw
  refine ⟨⟨rfl, rfl, rfl⟩, N, ⟨h.ffEq, h.depthEq, fun k i j => ?_⟩, fun i j k hk => by rw [hN]; simp [hk]⟩
  show bitAt (forN (fun k x => setSlice x k (mzdRandomize A.nrows A.ncols (x k) (rnd k))) A.depth A.x k) i j = _
  rw [randomizeLoop_bit, h.bit, h.depthEq]
  by_cases hij : i < A.nrows ∧ j < A.ncols
  · simp only [hij, and_self, and_true, if_true, hN]
    by_cases hk : k < ff.degree
    · simp [hk]
    · have := (bitsLt_iff (M i j).1 ff.degree).2 (M i j).2
      rw [if_neg hk, this k (by omega)]
      simp [hk]
  · simp only [hij, and_false, if_false]

/-- **C42** `mzd_poly_randomize(A)`: every coefficient bit within the matrix is the one delivered by the source, nothing else changes. -/
theorem C42_poly_randomize (A : MzdPoly) (rnd : Nat → Nat → Nat → Bool) :
    PolySame (mzdPolyRandomize A rnd) A ∧ ∀ t i j, bitAt ((mzdPolyRandomize A rnd).x t) i j =
      if t < A.depth ∧ i < A.nrows ∧ j < A.ncols then rnd t i j else bitAt (A.x t) i j :=
  ⟨⟨rfl, rfl, rfl, rfl⟩, fun t i j => randomizeLoop_bit A.nrows A.ncols rnd A.x A.depth t i j⟩

/-! ### C57: `_mzd_slice_adapt_depth` -/

/-- reading assembles the bits of the slices -/
theorem sliceRead_bits (R : Slice) (i j : Nat) (v : Word) (hd : R.depth ≤ 16) (hb : ∀ k, bitAt (R.x k) i j = v.getLsbD k)
    (hv : v.toNat < 2 ^ R.depth) : mzdSliceReadElem R i j = v := by
  have key : ∀ n, n ≤ 16 → ∀ k, (forN (fun a ret => ret ||| ((if bitAt (R.x a) i j then 1#64 else 0#64) <<< a)) n 0#64).getLsbD k =
      (decide (k < n) && v.getLsbD k) := by
    intro n
    induction n with
    | zero => intro _ k; simp [forN]
    | succ n ih =>
      intro hn k
      rw [forN, BitVec.getLsbD_or, ih (by omega), BitVec.getLsbD_shiftLeft, hb]
      by_cases hk : k = n
      · subst hk
        have : k < 64 := by omega
        cases v.getLsbD k <;> simp [this]
      · by_cases h2 : k < n
        · have : k < n + 1 := by omega
          simp [h2, this]
        · have h3 : ¬ k < n + 1 := by omega
          simp only [h2, h3, decide_false, Bool.false_and, Bool.false_or, Bool.not_false, Bool.and_true]
          have : 1 ≤ k - n := by omega
          cases v.getLsbD n
          · simp
          · simp only [if_true]
            rw [BitVec.getLsbD_one]
            simp
            omega
  apply word_ext
  intro k _
  unfold mzdSliceReadElem
  rw [key _ hd]
  by_cases hk : k < R.depth
  · simp [hk]
  · rw [((bitsLt_iff v R.depth).2 hv) k (by omega)]
    simp

/-- **C57** extending the depth of a matrix (up to the 16 slices there is room for) keeps every bit of every slice that existed and makes the new
ones zero, so every entry still reads as the same field element; -/
theorem C57_extend {A : Slice} {M : Nat → Nat → Elem ff} (h : SRep A M) (d : Nat) (h1 : ff.degree ≤ d) (h2 : d ≤ 16) :
    ∃ R, mzdSliceAdaptDepth? A d = some R ∧ SSameDim R A ∧ R.depth = d ∧
      (∀ k i j, bitAt (R.x k) i j = (M i j).1.getLsbD k) ∧ (∀ i j, mzdSliceReadElem R i j = (M i j).1) := by
  have hd := h.depthEq
  have hf := h.ffEq
  have hb : ∀ k i j, bitAt ((fun k => if A.depth ≤ k ∧ k < d then fun _ _ => 0#64 else A.x k) k) i j = (M i j).1.getLsbD k := by
    intro k i j
    by_cases hk : A.depth ≤ k ∧ k < d
    · simp only [hk, and_self, if_true]
      have := (bitsLt_iff (M i j).1 ff.degree).2 (M i j).2
      rw [this k (by omega)]
      unfold bitAt
      simp
    · simp only [hk, if_false]
      exact h.bit k i j
  refine ⟨{ A with depth := d, x := fun k => if A.depth ≤ k ∧ k < d then fun _ _ => 0#64 else A.x k }, ?_, ⟨rfl, rfl, rfl⟩, rfl, hb, ?_⟩
  · unfold mzdSliceAdaptDepth?
    rw [if_neg (by rw [hf]; omega), if_neg (by omega), if_neg (by omega)]
  · intro i j
    exact sliceRead_bits _ i j _ h2 (fun k => hb k i j) (lt_of_lt_of_le (M i j).2 (Nat.pow_le_pow_right (by norm_num) h1))

/-- **C57** ... truncating it back gives the original matrix, bit for bit (also through several changes of depth): -/
theorem C57_round_trip {A : Slice} {M : Nat → Nat → Elem ff} (h : SRep A M) (d : Nat) (h1 : ff.degree ≤ d) (h2 : d ≤ 16) :
    (mzdSliceAdaptDepth? A d).bind (fun R => mzdSliceAdaptDepth? R ff.degree) = some A := by
  have hd := h.depthEq
  have hf := h.ffEq
  have hz : ∀ k, A.depth ≤ k → A.x k = fun _ _ => 0#64 := by
    intro k hk
    have : ∀ i j, bitAt (A.x k) i j = bitAt (fun _ _ => 0#64) i j := by
      intro i j
      rw [h.bit]
      have := (bitsLt_iff (M i j).1 ff.degree).2 (M i j).2
      rw [this k (by omega)]
      unfold bitAt
      simp
    exact words_ext this
  have e1 : mzdSliceAdaptDepth? A d = some { A with depth := d } := by
    unfold mzdSliceAdaptDepth?
    rw [if_neg (by rw [hf]; omega), if_neg (by omega), if_neg (by omega)]
    congr 2
    funext k
    by_cases hk : A.depth ≤ k ∧ k < d
    · rw [if_pos hk, hz k hk.1]
    · rw [if_neg hk]
  rw [e1, Option.bind_some]
  unfold mzdSliceAdaptDepth?
  rw [if_neg (by show ¬ ¬ A.ff.degree ≤ ff.degree; rw [hf]; omega)]
  by_cases hlt : ff.degree < d
  · refine (if_pos hlt).trans ?_
    rw [← hd]
    congr 1
    cases A
    simp only [Slice.mk.injEq, true_and] at *
    funext k
    split_ifs with hk
    · rw [hz k (by omega)]
    · rfl
  · have : d = ff.degree := by omega
    subst this
    refine (if_neg (by simp)).trans ((if_neg (by simp)).trans ?_)
    rw [← hd]
    congr 1
    cases A
    simp only [Slice.mk.injEq, true_and] at *
    funext k
    rw [if_neg (by omega)]

/-- **C57** ... a depth below the degree fails the assertion, and a depth above 16 stores pointers past the end of the array of slices, although it is
documented to accept every depth that is at least the degree. -/
theorem C57_violation {A : Slice} {M : Nat → Nat → Elem ff} (h : SRep A M) (d : Nat) (h1 : d < ff.degree ∨ 16 < d) :
    mzdSliceAdaptDepth? A d = none := by
  have h16 : ff.degree ≤ 16 := (Fact.out : FFOK ff).min.e16
  have hd := h.depthEq
  have hf := h.ffEq
  unfold mzdSliceAdaptDepth?
  by_cases hlt : d < ff.degree
  · rw [if_pos (by rw [hf]; omega)]
  · rw [if_neg (by rw [hf]; omega), if_neg (by omega), if_pos (by omega)]

/-- **C57** truncation for an arbitrary number of slices: the slices below the new depth are kept, bit for bit, and the others are gone
for good - making the matrix deeper again gives zero slices there, not the old contents. -/
theorem C57_truncate (A : Slice) (d e : Nat) (h1 : A.ff.degree ≤ d) (h2 : d ≤ A.depth) (h3 : d ≤ e) (h4 : e ≤ 16) :
    ∃ R R', mzdSliceAdaptDepth? A d = some R ∧ mzdSliceAdaptDepth? R e = some R' ∧ SSameDim R' A ∧ R.depth = d ∧ R'.depth = e ∧
      (∀ k, k < d → R.x k = A.x k) ∧ (∀ k, k < d → R'.x k = A.x k) ∧
      (∀ k, d ≤ k → k < A.depth → R.x k = fun _ _ => 0#64) ∧ (∀ k, d ≤ k → k < e → R'.x k = fun _ _ => 0#64) := by
  have e1 : mzdSliceAdaptDepth? A d =
      some { A with depth := d, x := fun k => if d ≤ k ∧ k < A.depth then fun _ _ => 0#64 else A.x k } := by
    unfold mzdSliceAdaptDepth?
    rw [if_neg (by omega)]
    by_cases hd : d < A.depth
    · rw [if_pos hd]
    · rw [if_neg hd, if_neg (by omega)]
      congr 2
      funext k
      rw [if_neg (by omega), if_neg (by omega)]
  have e2 : mzdSliceAdaptDepth? { A with depth := d, x := fun k => if d ≤ k ∧ k < A.depth then fun _ _ => 0#64 else A.x k } e =
      some { A with depth := e, x := fun k => if d ≤ k ∧ k < e then fun _ _ => 0#64 else if d ≤ k ∧ k < A.depth then fun _ _ => 0#64 else A.x k } := by
    unfold mzdSliceAdaptDepth?
    rw [if_neg (show ¬¬ A.ff.degree ≤ e by omega), if_neg (show ¬ e < d by omega), if_neg (show ¬ (16 < e ∧ d < e) by omega)]
  refine ⟨_, _, e1, e2, ⟨rfl, rfl, rfl⟩, rfl, rfl, ?_, ?_, ?_, ?_⟩
  · intro k hk
    show (if d ≤ k ∧ k < A.depth then _ else _) = _
    rw [if_neg (by omega)]
  · intro k hk
    show (if d ≤ k ∧ k < e then _ else if d ≤ k ∧ k < A.depth then _ else _) = _
    rw [if_neg (by omega), if_neg (by omega)]
  · intro k hk hk'
    show (if d ≤ k ∧ k < A.depth then _ else _) = _
    rw [if_pos ⟨hk, hk'⟩]
  · intro k hk hk'
    show (if d ≤ k ∧ k < e then _ else if d ≤ k ∧ k < A.depth then _ else _) = _
    rw [if_pos ⟨hk, hk'⟩]

-- a matrix over the AES field: depths 8 to 16 are possible, the 15 slices of an unreduced product among them
example : ∃ ff, ∃ _ : IsField ff, ∃ (A : Slice) (M : Nat → Nat → Elem ff), SRep A M ∧ A.nrows = 3 ∧ ff.degree ≤ 15 ∧ 15 ≤ 16 ∧ M 0 0 = 1 := by
  obtain ⟨ff, h, hd⟩ := exists_aes
  exact ⟨ff, h, _, _, spack_rep (⟨3, 70, 0, fun _ _ => 1⟩ : Mat ff), rfl, by omega, by norm_num, rfl⟩

-- the contracts and hypotheses of the entry points
example : ∃ ff, ∃ _ : IsField ff, CompressOk pleEnv0.compress ∧ grayCode.Ok ff.degree ∧ ∃ (A : Slice) (M : Nat → Nat → Elem ff), SRep A M ∧
    (mzpInit 150).length = A.nrows ∧ (mzpInit 200).length = A.ncols ∧ M 1 0 = 1 := by
  obtain ⟨ff, h, hd⟩ := exists_aes
  exact ⟨ff, h, pleEnv0_ok, grayCode_ok _, _, _, spack_rep (⟨150, 200, 0, fun i j => if i = j + 1 then 1 else 0⟩ : Mat ff), rfl, rfl, by simp⟩

end M4rie.Props
