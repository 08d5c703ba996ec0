import Verif.Proofs.CheckedSlice

/-! The checked products and conversions of whole slices do what the total ones do. -/

namespace M4rie.Chk
open M4rie M4rie.Spec

variable {ff : Gf2e} [IsField ff] {m n k fid : Nat} {A B C : Mzed} {R S T A' B' C' : Slice} {fid' : Nat}

/-- `S` is a slice over `ff` of shape `m × n` all of whose entries are elements -/
def Sd (ff : Gf2e) [IsField ff] (m n fid : Nat) (S : Slice) : Prop := ∃ X : Mat ff, S = X.spack ∧ X.nrows = m ∧ X.ncols = n ∧ X.fid = fid

theorem Sd.nrows_eq (h : Sd ff m n fid S) : S.nrows = m := by obtain ⟨X, rfl, rfl, -, -⟩ := h; rfl
theorem Sd.ncols_eq (h : Sd ff m n fid S) : S.ncols = n := by obtain ⟨X, rfl, -, rfl, -⟩ := h; rfl
theorem Sd.fid_eq (h : Sd ff m n fid S) : S.fid = fid := by obtain ⟨X, rfl, -, -, rfl⟩ := h; rfl
theorem Sd.ff_eq (h : Sd ff m n fid S) : S.ff = ff := by obtain ⟨X, rfl, -, -, -⟩ := h; rfl
theorem Sd.depth_eq (h : Sd ff m n fid S) : S.depth = ff.degree := by obtain ⟨X, rfl, -, -, -⟩ := h; rfl
theorem Sd.arr_eq (h : Sd ff m n fid S) : arr S = ⟨ff.degree, m, n, S.x⟩ := by obtain ⟨X, rfl, rfl, rfl, -⟩ := h; rfl

theorem srep_sd {M : Nat → Nat → Elem ff} (h : SRep S M) : Sd ff S.nrows S.ncols S.fid S := ⟨_, h.eq_spack', rfl, rfl, rfl⟩

theorem tok (t : Nat) (h : t < 2 * ff.degree - 1) : TOk (some ff) ff.degree t := ⟨le_rfl, deg_le, h⟩

theorem sliceAddmulKara_eqv (hC : Sd ff m n fid C') (hA : Sd ff m k fid A') (hB : Sd ff k n fid B') :
    Eqv (Sd ff m n fid) (sliceAddmulKara C' A' B') (mzdSliceAddmulKara? C' A' B') := by
  have h2 := IsField.two_le (ff := ff)
  have h16 := deg_le (ff := ff)
  constructor
  · unfold sliceAddmulKara mzdSliceAddmulKara?
    rw [hA.ff_eq, if_pos ⟨h2, h16⟩, if_pos ⟨h2, h16⟩, hC.arr_eq, hA.arr_eq, hB.arr_eq, hA.nrows_eq, hA.ncols_eq, hB.ncols_eq,
      ptrAddmulKaratsuba_eq h2 h16 (by omega) (fun t ht => tok t ht), Option.map_map]
    rfl
  · intro r e
    obtain ⟨X, rfl, rfl, rfl, rfl⟩ := hC
    obtain ⟨Y, rfl, e1, -, -⟩ := hA
    obtain ⟨Z, rfl, -, e2, -⟩ := hB
    rw [sliceAddmulKara_spack X Y Z e1.symm e2.symm] at e
    cases e
    exact ⟨_, rfl, rfl, rfl, rfl⟩

theorem forC_mapM {σ τ : Type} (e : σ → τ) (f : Nat → τ → Option τ) (g : Nat → σ → Option σ) : ∀ n, (∀ i s, i < n → f i (e s) = (g i s).map e) → ∀ s,
    forC f n (e s) = (forNM g n s).map e := by
  intro n
  induction n with
  | zero => intro _ s; rfl
  | succ n ih =>
    intro h s
    show (forC f n (e s)).bind (f n) = ((forNM g n s).bind (g n)).map e
    rw [ih (fun i s hi => h i s (by omega))]
    cases forNM g n s with
    | none => rfl
    | some b => exact h n b (by omega)

theorem sliceAddmulNaive_eqv (hC : Sd ff m n fid C') (hA : Sd ff m k fid A') (hB : Sd ff k n fid B') :
    Eqv (Sd ff m n fid) (sliceAddmulNaive C' A' B') (mzdSliceAddmulNaive? C' A' B') := by
  constructor
  · unfold sliceAddmulNaive mzdSliceAddmulNaive?
    rw [hA.ff_eq, hC.arr_eq, hA.arr_eq, hB.arr_eq, hA.nrows_eq, hA.ncols_eq, hB.ncols_eq]
    rw [forC_mapM (fun x => (⟨ff.degree, m, n, x⟩ : Arr)) _ (fun i x => forNM (fun j x =>
      M4rie.ptrAddModred (some ff) m n (mzdMul m k n (fun _ _ => 0#64) (A'.x i) (B'.x j)) x (i + j)) ff.degree x), Option.map_map]
    · rfl
    intro i s hi
    refine forC_mapM (fun x => (⟨ff.degree, m, n, x⟩ : Arr)) _ _ _ ?_ s
    intro j s hj
    rw [get_eq _ hi, Option.bind_some, get_eq _ hj, Option.bind_some, pmul_eq, Option.bind_some]
    exact ptrAddModred_eq (tok _ (by omega)) s _
  · intro r e
    obtain ⟨X, rfl, rfl, rfl, rfl⟩ := hC
    obtain ⟨Y, rfl, e1, -, -⟩ := hA
    obtain ⟨Z, rfl, -, e2, -⟩ := hB
    rw [sliceAddmulNaive_spack X Y Z e1.symm e2.symm] at e
    cases e
    exact ⟨_, rfl, rfl, rfl, rfl⟩

theorem setUi_zero_sd (hC : Sd ff m n fid S) : Sd ff m n fid (mzdSliceSetUi S 0#64) := by
  obtain ⟨X, rfl, rfl, rfl, rfl⟩ := hC
  rw [sliceSetUi_zero]
  exact ⟨_, rfl, rfl, rfl, rfl⟩

theorem sliceMulKaratsuba_eqv (hC : Sd ff m n fid C') (hA : Sd ff m k fid A') (hB : Sd ff k n fid B') :
    Eqv (Sd ff m n fid) (sliceMulKaratsuba C' A' B') (mzdSliceMulKaratsuba? C' A' B') := by
  unfold sliceMulKaratsuba mzdSliceMulKaratsuba?
  rw [if_neg (by rw [hA.ncols_eq, hB.nrows_eq, hA.fid_eq, hB.fid_eq]; simp),
    if_neg (by rw [hC.fid_eq, hA.fid_eq, hC.nrows_eq, hA.nrows_eq, hC.ncols_eq, hB.ncols_eq]; simp), if_neg (by rw [hA.ncols_eq, hB.nrows_eq, hA.fid_eq, hB.fid_eq]; simp),
    if_neg (by rw [hC.fid_eq, hA.fid_eq, hC.nrows_eq, hA.nrows_eq, hC.ncols_eq, hB.ncols_eq]; simp)]
  exact sliceAddmulKara_eqv (setUi_zero_sd hC) hA hB

theorem sliceAddmulKaratsuba_eqv (hC : Sd ff m n fid C') (hA : Sd ff m k fid A') (hB : Sd ff k n fid B') :
    Eqv (Sd ff m n fid) (sliceAddmulKaratsuba C' A' B') (mzdSliceAddmulKaratsuba? C' A' B') := by
  unfold sliceAddmulKaratsuba mzdSliceAddmulKaratsuba?
  rw [if_neg (by rw [hA.ncols_eq, hB.nrows_eq, hA.fid_eq, hB.fid_eq]; simp),
    if_neg (by rw [hC.fid_eq, hA.fid_eq, hC.nrows_eq, hA.nrows_eq, hC.ncols_eq, hB.ncols_eq]; simp), if_neg (by rw [hA.ncols_eq, hB.nrows_eq, hA.fid_eq, hB.fid_eq]; simp),
    if_neg (by rw [hC.fid_eq, hA.fid_eq, hC.nrows_eq, hA.nrows_eq, hC.ncols_eq, hB.ncols_eq]; simp)]
  exact sliceAddmulKara_eqv hC hA hB

theorem sliceAddmulScalar_eqv (dbg : Bool) (hC : Sd ff m n fid C') (hB : Sd ff m n fid B') (a : Elem ff) :
    Eqv (Sd ff m n fid) (sliceAddmulScalar dbg C' a.1 B') (mzdSliceAddmulScalar? C' a.1 B') := by
  have h16 := deg_le (ff := ff)
  have hd : C'.fid = B'.fid ∧ C'.nrows = B'.nrows ∧ C'.ncols = B'.ncols := by
    rw [hC.fid_eq, hC.nrows_eq, hC.ncols_eq, hB.fid_eq, hB.nrows_eq, hB.ncols_eq]; exact ⟨rfl, rfl, rfl⟩
  constructor
  · unfold sliceAddmulScalar mzdSliceAddmulScalar?
    rw [assert_eq hd, Option.bind_some, if_pos hd, hB.ff_eq, hC.arr_eq, hB.arr_eq, hB.depth_eq, hB.nrows_eq, hB.ncols_eq]
    rw [forC_mapM (fun x => (⟨ff.degree, m, n, x⟩ : Arr)) _ (fun i x => if a.1 &&& twoPow i ≠ 0#64 then
      forNM (fun j x => M4rie.ptrAddModred (some ff) m n (B'.x j) x (i + j)) ff.degree x else some x), Option.map_map]
    · rfl
    intro i s hi
    have hp : 2 ^ i < 2 ^ 31 := Nat.pow_lt_pow_right (by decide) (by omega)
    rw [int_eq hp, Option.bind_some]
    by_cases hb : a.1 &&& twoPow i ≠ 0#64
    · rw [if_pos hb, if_pos hb]
      refine forC_mapM (fun x => (⟨ff.degree, m, n, x⟩ : Arr)) _ _ _ ?_ s
      intro j s hj
      rw [get_eq _ hj, Option.bind_some]
      exact ptrAddModred_eq (tok _ (by omega)) s _
    · rw [if_neg hb, if_neg hb]; rfl
  · intro r e
    obtain ⟨X, rfl, rfl, rfl, rfl⟩ := hC
    obtain ⟨Y, rfl, -, -, -⟩ := hB
    rw [sliceAddmulScalar_spack X Y a hd.1 hd.2.1 hd.2.2] at e
    cases e
    exact ⟨_, rfl, rfl, rfl, rfl⟩

theorem sliceMulScalar_eqv (dbg : Bool) (hC : Sd ff m n fid C') (hB : Sd ff m n fid B') (a : Elem ff) :
    Eqv (Sd ff m n fid) (sliceMulScalar dbg C' a.1 B') (mzdSliceMulScalar? C' a.1 B') := sliceAddmulScalar_eqv dbg (setUi_zero_sd hC) hB a

/-! ### conversions -/

theorem Dm.pos (h : Dm ff m n fid A) (hz : mzedIsZero A = false) : 0 < A.ncols := by
  obtain ⟨X, rfl, rfl, rfl, rfl⟩ := h
  by_contra h'
  have := (pack_isZero X).2 (fun i j _ hj => absurd hj (by show ¬ j < X.ncols; have : X.pack.ncols = X.ncols := rfl; omega))
  rw [hz] at this; cases this

theorem Sd.pos (h : Sd ff m n fid S) (hz : mzdSliceIsZero S = false) : 0 < S.ncols := by
  obtain ⟨X, rfl, rfl, rfl, rfl⟩ := h
  by_contra h'
  have := (spack_isZero X).2 (fun i j _ hj => absurd hj (by show ¬ j < X.ncols; have : X.spack.ncols = X.ncols := rfl; omega))
  rw [hz] at this; cases this

theorem sliceDispatch_sd (dbg : Bool) (hS : Sd ff m n fid' S) (hA : Dm ff m n fid A) : sliceDispatch dbg S A = mzedSliceDispatch S A :=
  sliceDispatch_eq dbg (by rw [hS.nrows_eq, hA.nrows_eq]) (by rw [hS.ncols_eq, hA.ncols_eq]) hA.pos (by rw [hA.ff_eq, hA.w_eq]) (by rw [hA.ff_eq, hS.depth_eq])
    (by rw [hA.ff_eq]; exact IsField.two_le) (by rw [hA.ff_eq]; exact deg_le)

theorem slice_eqv (dbg : Bool) (hS : Sd ff m n fid' S) (hA : Dm ff m n fid A) : Eqv (Sd ff m n fid') (slice dbg S A) (mzedSlice? S A) := by
  constructor
  · exact sliceDispatch_sd dbg (setUi_zero_sd hS) hA
  · intro r e
    obtain ⟨X, rfl, rfl, rfl, rfl⟩ := hS
    obtain ⟨Y, rfl, e1, e2, -⟩ := hA
    rw [slice_spack X Y e1.symm e2.symm] at e
    cases e
    exact ⟨_, rfl, rfl, rfl, rfl⟩

theorem sinit_sd : Sd ff m n fid (mzdSliceInit ff fid m n) := ⟨_, sliceInit_spack _ _ _, rfl, rfl, rfl⟩

theorem sliceNew_eqv (dbg : Bool) (hA : Dm ff m n fid A) : Eqv (Sd ff m n fid) (sliceNew dbg A) (mzedSliceNew? A) := by
  constructor
  · refine sliceDispatch_sd (fid' := fid) dbg ?_ hA
    rw [hA.ff_eq, hA.fid_eq, hA.nrows_eq, hA.ncols_eq]
    exact sinit_sd
  · intro r e
    obtain ⟨Y, rfl, e1, e2, e3⟩ := hA
    rw [sliceNew_spack Y] at e
    cases e
    exact ⟨_, rfl, e1, e2, e3⟩

theorem clingDispatch_sd (hA : Dm ff m n fid A) (hS : Sd ff m n fid' S) : clingDispatch A S = mzedClingDispatch A S :=
  clingDispatch_eq (by rw [hS.nrows_eq, hA.nrows_eq]) (by rw [hS.ncols_eq, hA.ncols_eq]) hS.pos (by rw [hS.ff_eq, hA.w_eq]) (by rw [hS.ff_eq, hS.depth_eq])
    (by rw [hS.ff_eq, hA.ff_eq]) (by rw [hS.ff_eq]; exact IsField.two_le) (by rw [hS.ff_eq]; exact deg_le)

theorem cling_eqv (hA : Dm ff m n fid A) (hs : Sm ff n) (hS : Sd ff m n fid' S) : Eqv (Dm ff m n fid) (cling A S) (mzedCling? A S) := by
  constructor
  · have := setUi_eq hA hs (0 : Elem ff)
    unfold cling
    rw [show setUi A 0#64 = some (mzedSetUi A 0#64) from this.1, Option.bind_some]
    exact clingDispatch_sd this.2 hS
  · intro r e
    obtain ⟨X, rfl, rfl, rfl, rfl⟩ := hA
    obtain ⟨Y, rfl, e1, e2, -⟩ := hS
    rw [cling_pack X Y e1.symm e2.symm] at e
    cases e
    exact ⟨_, rfl, rfl, rfl, rfl⟩

theorem clingNew_eqv (hs : Sm ff n) (hS : Sd ff m n fid S) : Eqv (Dm ff m n fid) (clingNew S) (mzedClingNew? S) := by
  constructor
  · unfold clingNew
    rw [hS.ff_eq, hS.ncols_eq, int_eq hs, Option.bind_some, hS.fid_eq, hS.nrows_eq]
    have := clingDispatch_sd (init_dm (m := m) (fid := fid) hs).2 hS
    unfold mzedClingNew?
    rw [hS.ff_eq, hS.ncols_eq, hS.fid_eq, hS.nrows_eq]
    exact this
  · intro r e
    obtain ⟨Y, rfl, e1, e2, e3⟩ := hS
    rw [clingNew_pack Y] at e
    cases e
    exact ⟨_, rfl, e1, e2, e3⟩

/-! ### packed multiplication -/

theorem addmulKara_eqv (dbg : Bool) (hs : Sm ff n) : MulEqv ff fid (addmulKara dbg) mzedAddmulKara? m k n := by
  intro C A B hC hA hB
  unfold addmulKara mzedAddmulKara?
  refine Eqv.bind (sliceNew_eqv dbg hC) fun Cs hCs => ?_
  refine Eqv.bind (sliceNew_eqv dbg hA) fun As hAs => ?_
  refine Eqv.bind (sliceNew_eqv dbg hB) fun Bs hBs => ?_
  exact Eqv.bind (sliceAddmulKara_eqv hCs hAs hBs) fun Ds hDs => cling_eqv hC hs hDs

section mul
variable {env : MulEnv} (hcb : env.cb.Ok ff.degree) (hbs : 16 ≤ env.bs)
include hcb hbs

theorem mulRaw_eqv (dbg : Bool) (hk : Sm ff k) (hs : Sm ff n) : MulEqv ff fid (mulRaw dbg env) (mzedMulRaw? env) m k n := by
  intro C A B hC hA hB
  unfold mulRaw mzedMulRaw?
  by_cases h : A.nrows ≥ 512 ∧ A.ncols ≥ 512 ∧ B.ncols ≥ 512
  · rw [if_pos h, if_pos h]; exact addmulKara_eqv dbg hs C A B hC hA hB
  · rw [if_neg h, if_neg h]
    exact mulStrassenF_eqv (fun m k n h1 h2 => mulNewtonJohn_eqv dbg hcb hbs m k n h1 h2) _ _ _ _ _ hk hs C A B hC hA hB

theorem addmulRaw_eqv (dbg : Bool) (hk : Sm ff k) (hs : Sm ff n) : MulEqv ff fid (addmulRaw dbg env) (mzedAddmulRaw? env) m k n := by
  intro C A B hC hA hB
  unfold addmulRaw mzedAddmulRaw?
  by_cases h : A.nrows ≥ 512 ∧ A.ncols ≥ 512 ∧ B.ncols ≥ 512
  · rw [if_pos h, if_pos h]; exact addmulKara_eqv dbg hs C A B hC hA hB
  · rw [if_neg h, if_neg h]
    exact addmulStrassenF_eqv (fun m k n h1 h2 => mulNewtonJohn_eqv dbg hcb hbs m k n h1 h2) _ _ _ _ _ hk hs C A B hC hA hB

omit hcb hbs in
theorem mulInit_eqv (clear : Bool) (hC : Dm ff m n fid C) (hs : Sm ff n) : Eqv (Dm ff m n fid) (mulInit C A B clear) (mzedMulInit? C A B clear) := by
  refine ⟨mulInit_eq C A B clear hC hs, fun R h => ?_⟩
  have := (setUi_eq hC hs (0 : Elem ff)).2
  unfold mzedMulInit? at h
  split at h
  · cases h
  split at h
  · cases h
  cases clear
  · cases h; exact hC
  · cases h; exact this

theorem mulM_eqv (dbg : Bool) (hk : Sm ff k) (hs : Sm ff n) : MulEqv ff fid (mulM dbg env) (mzedMul? env) m k n := fun C A B hC hA hB =>
  Eqv.bind (mulInit_eqv true hC hs) fun C' hC' => mulRaw_eqv hcb hbs dbg hk hs C' A B hC' hA hB

theorem addmulM_eqv (dbg : Bool) (hk : Sm ff k) (hs : Sm ff n) : MulEqv ff fid (addmulM dbg env) (mzedAddmul? env) m k n := fun C A B hC hA hB =>
  Eqv.bind (mulInit_eqv false hC hs) fun C' hC' => addmulRaw_eqv hcb hbs dbg hk hs C' A B hC' hA hB

end mul

end M4rie.Chk
