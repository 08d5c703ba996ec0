import Verif.Proofs.PolyExt

/-! `_mzd_poly_addmul_ext1`: interpolation and the complete function. -/

namespace M4rie
open Spec Finset Props

section
variable {ff : Gf2e} [IsField ff]

/-- the Vandermonde matrix is invertible -/
theorem van_inverse {fid d : Nat} (hd : d ≤ 2 ^ ff.degree) : ∃ N : Nat → Nat → Elem ff, IsInverse d (vanMat fid d d : Mat ff).e N := by
  have hdet : (Matrix.vandermonde fun i : Fin d => (pt i : Elem ff)).det ≠ 0 := by
    rw [Matrix.det_vandermonde_ne_zero_iff]
    intro i j h
    exact Fin.ext (pt_inj (lt_of_lt_of_le i.2 hd) (lt_of_lt_of_le j.2 hd) h)
  set V := Matrix.vandermonde fun i : Fin d => (pt i : Elem ff) with hV
  refine ⟨fun i j => if h : i < d ∧ j < d then V⁻¹ ⟨i, h.1⟩ ⟨j, h.2⟩ else 0, isInverse_iff.2 ?_⟩
  have e1 : toMat d (fun i j => if h : i < d ∧ j < d then V⁻¹ ⟨i, h.1⟩ ⟨j, h.2⟩ else 0) = V⁻¹ := by
    ext i j
    show (if h : (i : Nat) < d ∧ (j : Nat) < d then _ else _) = _
    rw [dif_pos ⟨i.2, j.2⟩]
  have e2 : toMat d (vanMat fid d d : Mat ff).e = V := by
    ext i j
    show (if (i : Nat) < d ∧ (j : Nat) < d then (pt i : Elem ff) ^ (j : Nat) else 0) = V i j
    rw [if_pos ⟨i.2, j.2⟩, hV, Matrix.vandermonde_apply]
  rw [e1, e2]
  exact Matrix.nonsing_inv_mul _ (isUnit_iff_ne_zero.2 hdet)

/-- `mzd_slice_mul_scalar` -/
theorem mulScalar_spack (T B : Mat ff) (x : Elem ff) (hf : T.fid = B.fid) (hr : T.nrows = B.nrows) (hc : T.ncols = B.ncols) :
    mzdSliceMulScalar? T.spack x.1 B.spack = some ((T.scalar 0).addScalarMul x B).spack := by
  unfold mzdSliceMulScalar?
  rw [show (0#64 : Word) = (0 : Elem ff).1 from rfl, sliceSetUi_spack]
  exact sliceAddmulScalar_spack _ B x hf hr hc

/-- the inner loop of the interpolation -/
theorem ext1Interp_inner {A B : MzdPoly} {fid d : Nat} (Rho : Mat ff) {c : Nat → Slice} {i : Nat} : ∀ n,
    (∀ k, k < n → c k = (valMat (ff := ff) A B fid d k).spack) → ∀ (T : Mat ff) (X : Nat → Nat → Nat → Word),
    T.fid = fid → T.nrows = A.nrows → T.ncols = B.ncols →
    ∃ (T' : Mat ff) (X' : Nat → Nat → Nat → Word), forNM (fun j (s : Slice × (Nat → Nat → Nat → Word)) =>
      (mzdSliceMulScalar? s.1 (mzedReadElem Rho.pack i j) (c j)).map fun tmp =>
        (tmp, setSlice s.2 i (mzdAdd A.nrows B.ncols (s.2 i) (s.2 i) (tmp.x 0)))) n (T.spack, X) = some (T'.spack, X') ∧
      T'.fid = fid ∧ T'.nrows = A.nrows ∧ T'.ncols = B.ncols ∧
      ∀ k r q, bitAt (X' k) r q = bitAt (X k) r q + decide (r < A.nrows ∧ q < B.ncols) * (decide (k = i) *
        ebit 0 (∑ j ∈ range n, Rho.e i j * (valMat (ff := ff) A B fid d j).e r q))
  | 0, _, T, X, h1, h2, h3 => ⟨T, X, rfl, h1, h2, h3, fun k r q => by
      rw [range_zero, sum_empty, map_zero]
      exact ((congrArg (fun z => bitAt (X k) r q + decide (r < A.nrows ∧ q < B.ncols) * z) (mul_zero _)).trans
        ((congrArg _ (mul_zero _)).trans (add_zero _))).symm⟩
  | n + 1, hc, T, X, h1, h2, h3 => by
    obtain ⟨T', X', e, t1, t2, t3, hX⟩ := ext1Interp_inner Rho n (fun k hk => hc k (by omega)) T X h1 h2 h3
    refine ⟨(T'.scalar 0).addScalarMul (Rho.e i n) (valMat (ff := ff) A B fid d n), setSlice X' i (mzdAdd A.nrows B.ncols (X' i) (X' i) (((T'.scalar 0).addScalarMul (Rho.e i n) (valMat (ff := ff) A B fid d n)).spack.x 0)), ?_, t1, t2, t3, fun k r q => ?_⟩
    · rw [forNM, e, Option.bind_some, hc n (by omega), read_pack, mulScalar_spack T' (valMat (ff := ff) A B fid d n) (Rho.e i n) t1 t2 t3, Option.map_some]
    · rw [setSlice_bits, hX, sum_range_succ, map_add, spack_bit]
      have hb : (decide (r < A.nrows ∧ q < B.ncols) && (((T'.scalar 0).addScalarMul (Rho.e i n) (valMat (ff := ff) A B fid d n)).e r q).1.getLsbD 0) =
          (decide (r < A.nrows ∧ q < B.ncols) && ebit 0 (Rho.e i n * (valMat (ff := ff) A B fid d n).e r q)) := by
        by_cases h : r < A.nrows ∧ q < B.ncols
        · rw [decide_eq_true h, Bool.true_and, Bool.true_and]
          show ebit 0 (if r < A.nrows ∧ q < B.ncols then (if r < T'.nrows ∧ q < T'.ncols then (if r = q then 0 else 0) else _) + _ else _) = _
          rw [if_pos h, t2, t3, if_pos h, ite_self, zero_add]
        · rw [decide_eq_false h, Bool.false_and, Bool.false_and]
      rw [hb]
      generalize ebit 0 (Rho.e i n * (valMat (ff := ff) A B fid d n).e r q) = z
      generalize ebit 0 (∑ j ∈ range n, Rho.e i j * (valMat (ff := ff) A B fid d j).e r q) = y
      generalize bitAt (X k) r q = w
      generalize decide (r < A.nrows ∧ q < B.ncols) = u
      generalize decide (k = i) = v
      revert u v w y z
      decide

/-- interpolation recovers the coefficients -/
theorem van_interp {A B : MzdPoly} {fid d : Nat} {N : Nat → Nat → Elem ff} (hN : IsInverse d (vanMat fid d d : Mat ff).e N) {i r q : Nat} (hi : i < d)
    (h : r < A.nrows ∧ q < B.ncols) : ∑ j ∈ range d, N i j * (valMat (ff := ff) A B fid d j).e r q =
      emb (pconv A.depth B.depth A.ncols A.x B.x i r q) := by
  have e : ∀ j ∈ range d, N i j * (valMat (ff := ff) A B fid d j).e r q =
      ∑ t ∈ range d, (N i j * (vanMat fid d d : Mat ff).e j t) * emb (pconv A.depth B.depth A.ncols A.x B.x t r q) := by
    intro j hj
    rw [mem_range] at hj
    show N i j * (if r < A.nrows ∧ q < B.ncols then _ else 0) = _
    rw [if_pos h, mul_sum]
    refine Finset.sum_congr rfl fun t ht => ?_
    rw [mem_range] at ht
    show _ = N i j * (if j < d ∧ t < d then pt j ^ t else 0) * _
    rw [if_pos ⟨hj, ht⟩, mul_assoc]
  rw [Finset.sum_congr rfl e, sum_comm]
  simp only [← sum_mul]
  rw [sum_eq_single i]
  · rw [(hN i i hi hi).2, if_pos rfl, one_mul]
  · intro t ht hne
    rw [(hN i t hi (mem_range.1 ht)).2, if_neg (Ne.symm hne), zero_mul]
  · intro hn; exact absurd (mem_range.2 hi) hn

theorem ext1Interp_spec {A B : MzdPoly} {fid d : Nat} (Rho : Mat ff) (hR : IsInverse d (vanMat fid d d : Mat ff).e Rho.e) {c : Nat → Slice}
    (hc : ∀ k, k < d → c k = (valMat (ff := ff) A B fid d k).spack) (T : Mat ff) (X : Nat → Nat → Nat → Word)
    (h1 : T.fid = fid) (h2 : T.nrows = A.nrows) (h3 : T.ncols = B.ncols) (hd : A.depth + B.depth - 1 ≤ d) :
    ∃ T' X', ext1Interp Rho.pack c A.nrows B.ncols d (T.spack, X) = some (T', X') ∧
      AddsPoly A.depth B.depth A.nrows A.ncols B.ncols X A.x B.x X' := by
  have main : ∀ n, n ≤ d → ∃ (T' : Mat ff) (X' : Nat → Nat → Nat → Word),
      forNM (fun i s => forNM (fun j (s : Slice × (Nat → Nat → Nat → Word)) =>
        (mzdSliceMulScalar? s.1 (mzedReadElem Rho.pack i j) (c j)).map fun tmp =>
        (tmp, setSlice s.2 i (mzdAdd A.nrows B.ncols (s.2 i) (s.2 i) (tmp.x 0)))) d s) n (T.spack, X) = some (T'.spack, X') ∧
      T'.fid = fid ∧ T'.nrows = A.nrows ∧ T'.ncols = B.ncols ∧
      ∀ k r q, bitAt (X' k) r q = bitAt (X k) r q + decide (r < A.nrows ∧ q < B.ncols) * (decide (k < n) *
        pconv A.depth B.depth A.ncols A.x B.x k r q) := by
    intro n
    induction n with
    | zero =>
      intro _
      refine ⟨T, X, rfl, h1, h2, h3, fun k r q => ?_⟩
      rw [decide_eq_false (show ¬ k < 0 by omega)]
      exact ((congrArg (fun z => bitAt (X k) r q + decide (r < A.nrows ∧ q < B.ncols) * z) (zero_mul _)).trans
        ((congrArg _ (mul_zero _)).trans (add_zero _))).symm
    | succ n ih =>
      intro hn
      obtain ⟨T1, X1, e1, t1, t2, t3, hX1⟩ := ih (by omega)
      obtain ⟨T2, X2, e2, s1, s2, s3, hX2⟩ := ext1Interp_inner (A := A) (B := B) (d := d) Rho (i := n) d hc T1 X1 t1 t2 t3
      refine ⟨T2, X2, by rw [forNM, e1, Option.bind_some, e2], s1, s2, s3, fun k r q => ?_⟩
      rw [hX2, hX1]
      by_cases h : r < A.nrows ∧ q < B.ncols
      · rw [van_interp hR (by omega) h, ebit_emb, decide_eq_true rfl, Bool.true_and, decide_eq_true h]
        by_cases hk : k = n
        · subst hk
          rw [decide_eq_true rfl, decide_eq_false (lt_irrefl k), decide_eq_true (Nat.lt_succ_self k)]
          generalize pconv A.depth B.depth A.ncols A.x B.x k r q = z
          generalize bitAt (X k) r q = w
          revert z w; decide
        · have : decide (k < n + 1) = decide (k < n) := by rw [decide_eq_decide]; omega
          rw [decide_eq_false hk, this]
          generalize pconv A.depth B.depth A.ncols A.x B.x k r q = z
          generalize pconv A.depth B.depth A.ncols A.x B.x n r q = z'
          generalize bitAt (X k) r q = w
          generalize decide (k < n) = v
          revert z z' w v; decide
      · rw [decide_eq_false h]
        exact (congrArg₂ (· + ·) (congrArg (bitAt (X k) r q + ·) (zero_mul _)) (zero_mul _)).trans
          ((add_zero _).trans (congrArg (bitAt (X k) r q + ·) (zero_mul _).symm))
  obtain ⟨T', X', e, _, _, _, hX⟩ := main d le_rfl
  refine ⟨T'.spack, X', e, fun k r q => ?_⟩
  rw [hX]
  by_cases hk : k < d
  · rw [decide_eq_true hk]
    exact congrArg (fun z => bitAt (X k) r q + decide (r < A.nrows ∧ q < B.ncols) * z) (one_mul _)
  · rw [pconv_high _ _ (by omega)]
    exact congrArg (fun z => bitAt (X k) r q + decide (r < A.nrows ∧ q < B.ncols) * z) (mul_zero _)

/-- the first two rows of `Phi` -/
theorem phi_init (fid d : Nat) (hd : 2 ≤ d) : forN (fun i Phi => mzedWriteElem Phi 1 i 1#64) d (mzedWriteElem (mzedInit ff fid d d) 0 0 1#64) =
    (vanMat fid d 2 : Mat ff).pack := by
  have h1 : (1#64 : Word) = (1 : Elem ff).1 := rfl
  rw [init_pack, h1, write_pack]
  have main : ∀ n, forN (fun i Phi => mzedWriteElem Phi 1 i (1 : Elem ff).1) n
      (Mat.set (⟨d, d, fid, fun _ _ => 0⟩ : Mat ff) 0 0 1).pack =
      (Mat.vanRow (Mat.set (⟨d, d, fid, fun _ _ => 0⟩ : Mat ff) 0 0 1) 1 n).pack := by
    intro n
    induction n with
    | zero =>
      refine congrArg Mat.pack (Mat.ext rfl rfl rfl ?_)
      funext r c
      exact (if_neg (by omega)).symm
    | succ n ih =>
      rw [forN, ih, write_pack]
      refine congrArg Mat.pack (Mat.ext rfl rfl rfl ?_)
      funext r c
      show (if r = 1 ∧ c = n then (1 : Elem ff) else if r = 1 ∧ c < n then _ else _) = if r = 1 ∧ c < n + 1 then _ else _
      by_cases h1 : r = 1 ∧ c = n
      · rw [if_pos h1, if_pos ⟨h1.1, by omega⟩, pt_one, one_pow]
      · rw [if_neg h1]
        by_cases h2 : r = 1 ∧ c < n
        · rw [if_pos h2, if_pos ⟨h2.1, by omega⟩]
        · rw [if_neg h2, if_neg (by omega)]
  rw [main]
  refine congrArg Mat.pack (Mat.ext rfl rfl rfl ?_)
  funext r c
  show (if r = 1 ∧ c < d then (pt 1 : Elem ff) ^ c else if r = 0 ∧ c = 0 then 1 else 0) = if r < 2 ∧ c < d then pt r ^ c else 0
  by_cases h1 : r = 1 ∧ c < d
  · rw [if_pos h1, if_pos ⟨by omega, h1.2⟩, h1.1]
  · rw [if_neg h1]
    by_cases h2 : r = 0 ∧ c = 0
    · rw [if_pos h2, if_pos (by omega), h2.2, pow_zero]
    · rw [if_neg h2]
      by_cases h3 : r < 2 ∧ c < d
      · have hr : r = 0 := by omega
        rw [if_pos h3, hr, pt_zero, zero_pow (by omega)]
      · rw [if_neg h3]

theorem ext1Body_spec {cb : Codebook} (hcb : cb.Ok ff.degree) (optK : Nat) (small : Bool) (fid : Nat) {C A B : MzdPoly} (hf : PolyFits C A B)
    (h1 : 1 ≤ A.depth) (h2 : 1 ≤ B.depth) {d : Nat} (hd : d = A.depth + B.depth - 1) (hd2 : 2 ≤ d) (hdC : d ≤ C.depth) (hde : d ≤ 2 ^ ff.degree) :
    ∃ R, ext1Body cb optK small ff fid C A B d = some R ∧ HoldsPolySum R C A B := by
  obtain ⟨WA, eA, hWA⟩ := sumAll_bits A.nrows A.ncols A.depth A.x
  obtain ⟨WB, eB, hWB⟩ := sumAll_bits B.nrows B.ncols B.depth B.x
  have za : ∀ (P : MzdPoly) (W : Nat → Nat → Word), (∀ i j, bitAt W i j = decide (i < P.nrows ∧ j < P.ncols) * ∑ a ∈ range P.depth, bitAt (P.x a) i j) →
      ∀ i j, ¬ (i < P.nrows ∧ j < P.ncols) → (emb (bitAt W i j) : Elem ff) = 0 := by
    intro P W hW i j h
    rw [hW, decide_eq_false h, map_mul, show (emb false : Elem ff) = 0 from rfl, zero_mul]
  have hc : ∀ k, k < 2 → (fun k => if k = 0 then
        ({ mzdSliceInit ff fid A.nrows B.ncols with x := setSlice (mzdSliceInit ff fid A.nrows B.ncols).x 0 (mzdMul A.nrows A.ncols B.ncols ((mzdSliceInit ff fid A.nrows B.ncols).x 0) (A.x 0) (B.x 0)) } : Slice)
        else ({ mzdSliceInit ff fid A.nrows B.ncols with x := setSlice (mzdSliceInit ff fid A.nrows B.ncols).x 0 (mzdMul A.nrows A.ncols B.ncols ((mzdSliceInit ff fid A.nrows B.ncols).x 0) WA WB) } : Slice)) k =
      (valMat (ff := ff) A B fid d k).spack := by
    intro k hk
    have : k = 0 ∨ k = 1 := by omega
    rcases this with rfl | rfl
    · exact valMat_zero fid d h1 h2 (by omega)
    · exact valMat_one hf.1 fid (by omega) hWA hWB
  obtain ⟨a', b', c', e, _, _, hc'⟩ := ext1Eval_loop hf.1 (fid := fid) (d := d) (by omega) (by omega) (by omega)
    (⟨A.nrows, A.ncols, fid, fun i j => emb (bitAt WA i j)⟩ : Mat ff) ⟨B.nrows, B.ncols, fid, fun i j => emb (bitAt WB i j)⟩
    ⟨rfl, rfl, rfl, za A WA hWA⟩ ⟨rfl, rfl, rfl, za B WB hWB⟩ _ hc (d - 2) (by omega)
  obtain ⟨Rho, eR⟩ := (C37_invert hcb optK small (pack_rep (vanMat fid d d : Mat ff)) rfl).2 (van_inverse hde)
  obtain ⟨_, N, hN, hinv⟩ := (C37_invert hcb optK small (pack_rep (vanMat fid d d : Mat ff)) rfl).1 _ eR
  obtain ⟨T', X', eI, hX⟩ := ext1Interp_spec (A := A) (B := B) (fid := fid) (d := d) (⟨Rho.nrows, Rho.ncols, Rho.fid, N⟩ : Mat ff) hinv
    (fun k hk => hc' k (by omega)) (⟨A.nrows, B.ncols, fid, fun _ _ => 0⟩ : Mat ff) C.x rfl rfl rfl (by omega)
  rw [← hN.eq_pack', ← sliceInit_spack] at eI
  refine ⟨{ C with x := X' }, ?_, holdsPoly (by omega) hX⟩
  rw [← bits_spack, ← bits_spack, ← phi_init fid d hd2, show d - 2 + 2 = d by omega] at e
  unfold ext1Body
  show Option.bind (forNM (fun i s => ext1Eval A B d (i + 2) s) (d - 2)
    ((_, { mzdSliceInit ff fid A.nrows A.ncols with x := forN (fun i x => setSlice x 0 (mzdAdd A.nrows A.ncols (x 0) (x 0) (A.x i))) A.depth (fun _ _ _ => 0#64) },
      { mzdSliceInit ff fid B.nrows B.ncols with x := forN (fun i x => setSlice x 0 (mzdAdd B.nrows B.ncols (x 0) (x 0) (B.x i))) B.depth (fun _ _ _ => 0#64) }), fun k => if k = 0 then _ else
      { mzdSliceInit ff fid A.nrows B.ncols with x := setSlice (mzdSliceInit ff fid A.nrows B.ncols).x 0 (mzdMul A.nrows A.ncols B.ncols ((mzdSliceInit ff fid A.nrows B.ncols).x 0)
        (forN (fun i x => setSlice x 0 (mzdAdd A.nrows A.ncols (x 0) (x 0) (A.x i))) A.depth (fun _ _ _ => 0#64) 0)
        (forN (fun i x => setSlice x 0 (mzdAdd B.nrows B.ncols (x 0) (x 0) (B.x i))) B.depth (fun _ _ _ => 0#64) 0)) })) _ = _
  rw [eA, eB]
  refine (congrArg (fun z => Option.bind z _) e).trans ?_
  rw [Option.bind_some]
  show Option.bind (mzedInvertNewtonJohn? cb optK small (vanMat fid d d : Mat ff).pack) _ = _
  rw [eR, Option.bind_some]
  exact congrArg (Option.map _) eI

end
end M4rie
