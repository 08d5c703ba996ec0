import Verif.Proofs.Space
import Verif.Props.Cost
import Verif.Props.NewtonJohn

/-!
# C78: how much memory a multiplication takes

`inUse l` and `peak l` (Spec/Space): the memory in use after, and the most in use at any time during, the allocations and releases `l`, in words of 64 bits.  The versions with a
trace (Model/Space) are statement by statement the ones of the other models.  `packedWords w m n` are the words of an `m × n` matrix, `tableWords e w n` those of one Newton-John table.
-/

namespace M4rie.Props
open M4rie M4rie.Spec

variable {ff : Gf2e} [IsField ff]

/-! ### What the measures mean -/

/-- **C78** the peak is the largest amount in use after any number of steps: no prefix uses more, and one uses that much. -/
theorem C78_peak (l : List Event) : (∀ i, inUse (l.take i) ≤ peak l) ∧ ∃ i ≤ l.length, inUse (l.take i) = peak l := ⟨prefix_le_peak l, peak_attained l⟩

/-! ### Sliced matrices -/

section
variable {A B C : Slice} {MA MB MC : Nat → Nat → Elem ff} (hA : SRep A MA) (hB : SRep B MB) (hC : SRep C MC) (h : SFits C A B)
include hA hB hC h

/-- **C78** `mzd_slice_mul(C,A,B)` over GF(2^e), e > 2, takes three matrices over GF(2), one of the size of each argument, and gives them back, whatever `e` is; for e = 2 it takes only
the larger of the result and the two factors together. -/
theorem C78_slice_mul : ∃ R l, mzdSliceMulKaratsubaT C A B [] = some (R, l) ∧ SHoldsProduct R C A.ncols MC MA MB ∧ inUse l = 0 ∧
    peak l = ((if ff.degree = 2 then max (gf2Words A.nrows A.ncols + gf2Words A.ncols B.ncols) (gf2Words A.nrows B.ncols)
      else gf2Words A.nrows B.ncols + gf2Words A.nrows A.ncols + gf2Words A.ncols B.ncols : Nat) : Int) := by
  obtain ⟨R, e, hR⟩ := C28_mul hA hB hC h
  obtain ⟨s1, s2⟩ := karaTrace_size ff.degree A.nrows A.ncols B.ncols
  refine ⟨R, _, ?_, hR, s1, s2⟩
  have h2 := IsField.two_le (ff := ff)
  have h16 := (Fact.out : FFOK ff).min.e16
  have hl := sliceKara_traces (mzdSliceSetUi C 0#64) A B (by rw [hA.ffEq]; exact h2) (by rw [hA.ffEq]; exact h16) []
  unfold mzdSliceMulKaratsuba? at e
  unfold mzdSliceMulKaratsubaT
  rw [if_neg (by have := h.inner; have := h.field; tauto), if_neg (by have := h.fieldC; have := h.rows; have := h.cols; tauto)] at e ⊢
  rw [hl, e, hA.ffEq]
  rfl

/-- **C78** the same for `mzd_slice_addmul(C,A,B)`. -/
theorem C78_slice_addmul : ∃ R l, mzdSliceAddmulKaratsubaT C A B [] = some (R, l) ∧ SHoldsSumProduct R C A.ncols MC MA MB ∧ inUse l = 0 ∧
    peak l = ((if ff.degree = 2 then max (gf2Words A.nrows A.ncols + gf2Words A.ncols B.ncols) (gf2Words A.nrows B.ncols)
      else gf2Words A.nrows B.ncols + gf2Words A.nrows A.ncols + gf2Words A.ncols B.ncols : Nat) : Int) := by
  obtain ⟨R, e, hR⟩ := C28_addmul hA hB hC h
  obtain ⟨s1, s2⟩ := karaTrace_size ff.degree A.nrows A.ncols B.ncols
  refine ⟨R, _, ?_, hR, s1, s2⟩
  have h2 := IsField.two_le (ff := ff)
  have h16 := (Fact.out : FFOK ff).min.e16
  have hl := sliceKara_traces C A B (by rw [hA.ffEq]; exact h2) (by rw [hA.ffEq]; exact h16) []
  unfold mzdSliceAddmulKaratsuba? at e
  unfold mzdSliceAddmulKaratsubaT
  rw [if_neg (by have := h.inner; have := h.field; tauto), if_neg (by have := h.fieldC; have := h.rows; have := h.cols; tauto)] at e ⊢
  rw [hl, e, hA.ffEq]
  rfl

end

/-! ### Packed matrices -/

section
variable {cb : Codebook} (hcb : cb.Ok ff.degree) {bs : Nat} (hbs : 16 ≤ bs)
    {A B C : Mzed} {MA MB MC : Nat → Nat → Elem ff} (hA : Rep A MA) (hB : Rep B MB) (hC : Rep C MC) (hfit : Fits C A B)

/-- the matrix after the checks -/
theorem mulInit_rep {R : Mzed} {cl : Bool} (hC : Rep C MC) (h : mzedMulInit? C A B cl = some R) :
    R.nrows = A.nrows ∧ R.ncols = B.ncols ∧ ∃ MR : Nat → Nat → Elem ff, Rep R MR := by
  obtain ⟨h1, h2⟩ := mulInit_dims h
  refine ⟨h1, h2, ?_⟩
  unfold mzedMulInit? at h
  split_ifs at h
  · cases h; exact ⟨_, (hC.setUi 0).1⟩
  · cases h; exact ⟨_, hC⟩

theorem mulStrassenTop_traces (hA : Rep A MA) (hB : Rep B MB) (hC : Rep C MC) (cutoff : Int) :
    Traces (mzedMulStrassenT cb bs C A B cutoff) (mzedMulStrassen? cb bs C A B cutoff)
      (mulTrace ff.degree (degreeToW ff.degree) cutoff (strassenDepth A B) A.nrows A.ncols B.ncols) ∧
    Traces (mzedAddmulStrassenT cb bs C A B cutoff) (mzedAddmulStrassen? cb bs C A B cutoff)
      (addmulTrace ff.degree (degreeToW ff.degree) cutoff (strassenDepth A B) A.nrows A.ncols B.ncols) := by
  constructor
  · refine Traces.congr (traces_bind (traces_inPlace _) fun D hD => ?_) (List.nil_append _)
    obtain ⟨d1, d2, _, hR⟩ := mulInit_rep hC hD
    exact mulStrassen_traces _ cutoff ff _ _ _ _ D A B hA.wEq hR.ffEq hA.ffEq hB.ffEq d1 d2 rfl rfl rfl
  · refine Traces.congr (traces_bind (traces_inPlace _) fun D hD => ?_) (List.nil_append _)
    obtain ⟨d1, d2, _, hR⟩ := mulInit_rep hC hD
    exact addmulStrassen_traces _ cutoff ff _ _ _ _ D A B hA.wEq hR.ffEq hA.ffEq hB.ffEq d1 d2 rfl rfl rfl

include hcb hbs hA hB hC hfit

/-- **C78** `mzed_mul_newton_john(C,A,B)` and `mzed_addmul_newton_john(C,A,B)` take exactly eight tables and give them back, and nothing if `A` has fewer rows than the field has
degree: never anything that depends on the number of rows. -/
theorem C78_newton_john (hn : 0 < B.ncols) : ∃ R R' l, mzedMulNewtonJohnT cb bs C A B [] = some (R, l) ∧ mzedAddmulNewtonJohnT cb bs C A B [] = some (R', l) ∧
    HoldsProduct R C A.ncols MC MA MB ∧ HoldsSumProduct R' C A.ncols MC MA MB ∧ inUse l = 0 ∧
    peak l = if ff.degree ≤ A.nrows then 8 * (tableWords ff.degree A.w B.ncols : Int) else 0 := by
  obtain ⟨R, e, hR⟩ := C22_mul_newton_john hcb hbs hA hB hC hfit.inner hfit.field hfit.fieldC hfit.rows hfit.cols hn
  obtain ⟨R', e', hR'⟩ := C22_addmul_newton_john hcb hbs hA hB hC hfit.inner hfit.field hfit.fieldC hfit.rows hfit.cols hn
  have hbf : B.ff = A.ff := hB.ffEq.trans hA.ffEq.symm
  have hs : ∀ X, mzedMulNewtonJohnAcc? cb bs X A B = some (mzedMulNewtonJohnAcc cb bs X A B) := fun X => if_neg (by omega)
  have top : ∀ cl, Traces (inPlace (mzedMulInit? C A B cl) >>= fun C => newtonJohnT (mzedMulNewtonJohnAcc? cb bs) C A B)
      ((mzedMulInit? C A B cl).map fun C => mzedMulNewtonJohnAcc cb bs C A B) (njTrace ff.degree (degreeToW ff.degree) A.nrows B.ncols) := by
    intro cl
    have hb := traces_bind (traces_inPlace (mzedMulInit? C A B cl)) (f := fun C => newtonJohnT (mzedMulNewtonJohnAcc? cb bs) C A B)
      (g := fun C => some (mzedMulNewtonJohnAcc cb bs C A B)) fun D _ => by
        have := newtonJohn_traces (mzedMulNewtonJohnAcc? cb bs) D A B hbf
        rw [hs, hA.ffEq] at this
        exact this
    rw [List.nil_append] at hb
    rw [Option.map_eq_bind]
    exact hb
  refine ⟨R, R', njTrace ff.degree (degreeToW ff.degree) A.nrows B.ncols, ?_, ?_, hR, hR', njTrace_inUse _ _ _ _, ?_⟩
  · have h1 := top true []
    rw [show (mzedMulInit? C A B true).map (fun C => mzedMulNewtonJohnAcc cb bs C A B) = some R from e] at h1
    exact h1
  · have h1 := top false []
    rw [show (mzedMulInit? C A B false).map (fun C => mzedMulNewtonJohnAcc cb bs C A B) = some R' from e'] at h1
    exact h1
  · rw [njTrace_peak, hA.wEq]
    split_ifs <;> omega

/-- **C78** `mzed_mul_strassen(C,A,B,cutoff)` and `mzed_addmul_strassen(C,A,B,cutoff)`, for every cutoff they return for, however deep the recursion goes: besides eight tables, at most one matrix
of the size of `C`, or a third of what `B` and the larger of `A` and `C` take (a third of what `A`, `B` and `C` take for the second); all of it is given back. -/
theorem C78_strassen (cutoff : Int) :
    (∀ R l, mzedMulStrassenT cb bs C A B cutoff [] = some (R, l) → HoldsProduct R C A.ncols MC MA MB ∧ inUse l = 0 ∧
      3 * peak l ≤ (max (packedWords A.w A.ncols B.ncols + max (packedWords A.w A.nrows A.ncols) (packedWords A.w A.nrows B.ncols)) (3 * packedWords A.w A.nrows B.ncols) : Nat) +
        3 * (8 * (tableWords ff.degree A.w B.ncols : Int))) ∧
    (∀ R l, mzedAddmulStrassenT cb bs C A B cutoff [] = some (R, l) → HoldsSumProduct R C A.ncols MC MA MB ∧ inUse l = 0 ∧
      3 * peak l ≤ (max (packedWords A.w A.nrows A.ncols + packedWords A.w A.ncols B.ncols + packedWords A.w A.nrows B.ncols) (3 * packedWords A.w A.nrows B.ncols) : Nat) +
        3 * (8 * (tableWords ff.degree A.w B.ncols : Int))) := by
  obtain ⟨h1, h2⟩ := mulStrassenTop_traces (cb := cb) (bs := bs) hA hB hC cutoff
  have hw := okW_ff (ff := ff)
  rw [hA.wEq]
  constructor
  · intro R l h
    rw [h1 []] at h
    obtain ⟨R', hR, e⟩ := Option.map_eq_some_iff.1 h
    cases e
    exact ⟨(C23_mul_strassen hcb hbs hA hB hC hfit cutoff).1 _ hR, mulTrace_size _ hw _ _ _ _ _⟩
  · intro R l h
    rw [h2 []] at h
    obtain ⟨R', hR, e⟩ := Option.map_eq_some_iff.1 h
    cases e
    exact ⟨(C24_addmul_strassen hcb hbs hA hB hC hfit cutoff).1 _ hR, addmulTrace_size _ hw _ _ _ _ _⟩

/-- **C78** as soon as one dimension is no larger than the cutoff, both take exactly a whole copy of `C` and eight tables (none if `A` has fewer rows than the field has degree), however large the other
dimensions are: the copy is not the constant overhead the comment in the code speaks of, and the bounds of `C78_strassen` are attained. -/
theorem C78_strassen_small (cutoff : Int) (hn : 0 < B.ncols)
    (hs : (0 < A.nrows ∧ (A.nrows : Int) ≤ cutoff) ∨ (0 < A.ncols ∧ (A.ncols : Int) ≤ cutoff) ∨ (B.ncols : Int) ≤ cutoff) :
    (∀ R l, mzedMulStrassenT cb bs C A B cutoff [] = some (R, l) → HoldsProduct R C A.ncols MC MA MB ∧ inUse l = 0 ∧
      peak l = packedWords A.w A.nrows B.ncols + if ff.degree ≤ A.nrows then 8 * (tableWords ff.degree A.w B.ncols : Int) else 0) ∧
    (∀ R l, mzedAddmulStrassenT cb bs C A B cutoff [] = some (R, l) → HoldsSumProduct R C A.ncols MC MA MB ∧ inUse l = 0 ∧
      peak l = packedWords A.w A.nrows B.ncols + if ff.degree ≤ A.nrows then 8 * (tableWords ff.degree A.w B.ncols : Int) else 0) := by
  obtain ⟨h1, h2⟩ := mulStrassenTop_traces (cb := cb) (bs := bs) hA hB hC cutoff
  have hb := strassenBase_small (cutoff := cutoff) (m := A.nrows) (k := A.ncols) (n := B.ncols) (hs.imp id (Or.imp id fun h => ⟨hn, h⟩))
  have h0 : ¬ (A.nrows = 0 ∧ B.ncols = 0) := by omega
  have e1 : mulTrace ff.degree (degreeToW ff.degree) cutoff (strassenDepth A B) A.nrows A.ncols B.ncols = leafTrace ff.degree (degreeToW ff.degree) A.nrows B.ncols := by
    unfold strassenDepth mulTrace
    rw [if_neg h0, if_pos hb]
  have e2 : addmulTrace ff.degree (degreeToW ff.degree) cutoff (strassenDepth A B) A.nrows A.ncols B.ncols = leafTrace ff.degree (degreeToW ff.degree) A.nrows B.ncols := by
    unfold strassenDepth addmulTrace
    rw [if_neg h0, if_pos hb]
  rw [e1] at h1
  rw [e2] at h2
  obtain ⟨s1, s2⟩ := leafTrace_size ff.degree (degreeToW ff.degree) A.nrows B.ncols
  have s3 : peak (leafTrace ff.degree (degreeToW ff.degree) A.nrows B.ncols) =
      packedWords (degreeToW ff.degree) A.nrows B.ncols + if ff.degree ≤ A.nrows then 8 * (tableWords ff.degree (degreeToW ff.degree) B.ncols : Int) else 0 := by
    rw [s2]; split_ifs <;> omega
  rw [hA.wEq]
  constructor
  · intro R l h
    rw [h1 []] at h
    obtain ⟨R', hR, e⟩ := Option.map_eq_some_iff.1 h
    cases e
    exact ⟨(C23_mul_strassen hcb hbs hA hB hC hfit cutoff).1 _ hR, s1, s3⟩
  · intro R l h
    rw [h2 []] at h
    obtain ⟨R', hR, e⟩ := Option.map_eq_some_iff.1 h
    cases e
    exact ⟨(C24_addmul_strassen hcb hbs hA hB hC hfit cutoff).1 _ hR, s1, s3⟩

/-- **C78** for square matrices of `2^j b` rows and cutoff `b` (`b` filling whole words, at least two of them, and at least the degree of the field): exactly two thirds of the size of one of the matrices
and a third of a `b × b` matrix for the first, and exactly the size of one of the matrices for the second, besides eight tables for `b` columns. -/
theorem C78_strassen_exact {j b : Nat} (hb : ff.degree ≤ b) (hd : 64 / A.w ∣ b) (hb2 : 128 / A.w ≤ b + 1) (h1 : A.nrows = 2 ^ j * b) (h2 : A.ncols = 2 ^ j * b)
    (h3 : B.ncols = 2 ^ j * b) :
    (∃ R l, mzedMulStrassenT cb bs C A B b [] = some (R, l) ∧ HoldsProduct R C A.ncols MC MA MB ∧ inUse l = 0 ∧
      3 * peak l = (2 * packedWords A.w A.nrows A.ncols + packedWords A.w b b : Nat) + 3 * (8 * (tableWords ff.degree A.w b : Int))) ∧
    (∃ R l, mzedAddmulStrassenT cb bs C A B b [] = some (R, l) ∧ HoldsSumProduct R C A.ncols MC MA MB ∧ inUse l = 0 ∧
      peak l = packedWords A.w A.nrows A.ncols + 8 * (tableWords ff.degree A.w b : Int)) := by
  obtain ⟨l1, l2⟩ := mulStrassenTop_traces (cb := cb) (bs := bs) hA hB hC (b : Int)
  have hw : A.w = degreeToW ff.degree := hA.wEq
  have hwB : B.w = A.w := hB.wEq.trans hw.symm
  have hb0 : 0 < b := by have := IsField.two_le (ff := ff); omega
  have hj : j < strassenDepth A B := by
    unfold strassenDepth
    have : j < 2 ^ j := Nat.lt_two_pow_self
    have : 2 ^ j ≤ 2 ^ j * b := Nat.le_mul_of_pos_right _ hb0
    omega
  have hn : 0 < B.ncols := by rw [h3]; positivity
  have hc : 128 / (B.w : Int) ≤ (b : Int) + 1 := by rw [hwB]; exact_mod_cast hb2
  have h64 : 64 ∣ degreeToW ff.degree * b := by
    rw [hw] at hd
    rcases okW_ff (ff := ff) with h | h | h | h <;> rw [h] at hd ⊢ <;> omega
  obtain ⟨z1, z2, p1, p2⟩ := traces_pow ff.degree hb0 (hw ▸ hd) h64 j _ hj
  rw [if_neg (by omega)] at p1 p2
  rw [h1, h2, h3] at l1 l2
  obtain ⟨R1, e1⟩ := (C23_mul_strassen hcb hbs hA hB hC hfit b).2 hn hc
  obtain ⟨R2, e2⟩ := (C24_addmul_strassen hcb hbs hA hB hC hfit b).2 hn hc
  have ep : packedWords A.w A.nrows A.ncols = 4 ^ j * packedWords A.w b b := by rw [h1, h2, hw, packedWords_pow h64]
  refine ⟨⟨R1, _, by rw [l1, e1]; rfl, (C23_mul_strassen hcb hbs hA hB hC hfit b).1 _ e1, z1, ?_⟩,
    ⟨R2, _, by rw [l2, e2]; rfl, (C24_addmul_strassen hcb hbs hA hB hC hfit b).1 _ e2, z2, ?_⟩⟩
  · rw [p1, ep, hw]; push_cast; ring
  · rw [p2, ep, hw]

end

/-! ### The dispatch of `mzed_mul` and `mzed_addmul` -/

/-- the slices of the three matrices, and the temporaries of the multiplication of the slices -/
def mulKaraTrace (e m k n : Nat) : List Event :=
  (List.replicate e [.get (gf2Words m n)]).flatten ++ ((List.replicate e [.get (gf2Words m k)]).flatten ++ ((List.replicate e [.get (gf2Words k n)]).flatten ++
    (karaTrace e m k n ++ ((List.replicate e [.put (gf2Words m k)]).flatten ++ ((List.replicate e [.put (gf2Words k n)]).flatten ++
      (List.replicate e [.put (gf2Words m n)]).flatten)))))

theorem gets_size (e n : Nat) : inUse (List.replicate e [Event.get n]).flatten = (e * n : Nat) ∧ peak (List.replicate e [Event.get n]).flatten = (e * n : Nat) := by
  have h : inUse (List.replicate e [Event.get n]).flatten = (e * n : Nat) := by
    rw [inUse_times]; simp [inUse, Event.delta]
  refine ⟨h, ?_⟩
  rw [peak_gets, h]
  intro x hx
  obtain ⟨l, hl, hx⟩ := List.mem_flatten.1 hx
  rw [List.eq_of_mem_replicate hl, List.mem_singleton] at hx
  rw [hx]; exact Int.natCast_nonneg _

theorem puts_size (e n : Nat) : inUse (List.replicate e [Event.put n]).flatten = -(e * n : Nat) ∧ peak (List.replicate e [Event.put n]).flatten = 0 := by
  constructor
  · rw [inUse_times]; simp [inUse, Event.delta]
  · rw [peak_puts]
    intro x hx
    obtain ⟨l, hl, hx⟩ := List.mem_flatten.1 hx
    rw [List.eq_of_mem_replicate hl, List.mem_singleton] at hx
    rw [hx]; exact Int.neg_nonpos_of_nonneg (Int.natCast_nonneg _)

theorem mulKaraTrace_size (e m k n : Nat) : inUse (mulKaraTrace e m k n) = 0 ∧
    peak (mulKaraTrace e m k n) = ((slicedWords e m n + slicedWords e m k + slicedWords e k n +
      (if e = 2 then max (gf2Words m k + gf2Words k n) (gf2Words m n) else gf2Words m n + gf2Words m k + gf2Words k n) : Nat) : Int) := by
  obtain ⟨k1, k2⟩ := karaTrace_size e m k n
  obtain ⟨a1, a2⟩ := gets_size e (gf2Words m n)
  obtain ⟨b1, b2⟩ := gets_size e (gf2Words m k)
  obtain ⟨c1, c2⟩ := gets_size e (gf2Words k n)
  obtain ⟨d1, d2⟩ := puts_size e (gf2Words m n)
  obtain ⟨e1, e2⟩ := puts_size e (gf2Words m k)
  obtain ⟨f1, f2⟩ := puts_size e (gf2Words k n)
  unfold mulKaraTrace slicedWords
  simp only [inUse_append, peak_append, k1, k2, a1, a2, b1, b2, c1, c2, d1, d2, e1, e2, f1, f2]
  generalize e * gf2Words m n = x
  generalize e * gf2Words m k = y
  generalize e * gf2Words k n = z
  constructor
  · omega
  · push_cast
    split_ifs <;> omega

theorem sliceNewT_traces (X : Mat ff) : Traces (mzedSliceNewT X.pack) (some X.trim.spack) (List.replicate ff.degree [.get (gf2Words X.nrows X.ncols)]).flatten := by
  have h := traces_before (traces_times (traces_get (gf2Words X.nrows X.ncols)) ff.degree) (traces_inPlace (mzedSliceNew? X.pack))
  rw [List.append_nil] at h
  have e := sliceNew_spack X
  rw [← e]
  exact h

theorem addmulKaraT_traces {A B C : Mzed} {MA MB MC : Nat → Nat → Elem ff} (hA : Rep A MA) (hB : Rep B MB) (hC : Rep C MC) (h1 : C.nrows = A.nrows) (h2 : C.ncols = B.ncols)
    (h3 : A.ncols = B.nrows) : Traces (mzedAddmulKaraT C A B) (mzedAddmulKara? C A B) (mulKaraTrace ff.degree A.nrows A.ncols B.ncols) := by
  have t2 := IsField.two_le (ff := ff)
  have t16 := (Fact.out : FFOK ff).min.e16
  have eA := sliceNewT_traces (⟨A.nrows, A.ncols, A.fid, MA⟩ : Mat ff)
  have eB := sliceNewT_traces (⟨B.nrows, B.ncols, B.fid, MB⟩ : Mat ff)
  have eC := sliceNewT_traces (⟨C.nrows, C.ncols, C.fid, MC⟩ : Mat ff)
  have fA := sliceNew_spack (⟨A.nrows, A.ncols, A.fid, MA⟩ : Mat ff)
  have fB := sliceNew_spack (⟨B.nrows, B.ncols, B.fid, MB⟩ : Mat ff)
  have fC := sliceNew_spack (⟨C.nrows, C.ncols, C.fid, MC⟩ : Mat ff)
  rw [← hA.eq_pack'] at eA fA
  rw [← hB.eq_pack'] at eB fB
  rw [← hC.eq_pack'] at eC fC
  unfold mulKaraTrace
  rw [← h1, ← h2]
  unfold mzedAddmulKaraT mzedAddmulKara?
  rw [fA, fB, fC]
  refine traces_bind eC fun Cs hCs => ?_
  cases hCs
  refine traces_bind (Traces.congr eA (by rw [h1])) fun As hAs => ?_
  cases hAs
  refine traces_bind (Traces.congr eB (by rw [h3, h2])) fun Bs hBs => ?_
  cases hBs
  refine traces_bind (Traces.congr (sliceKara_traces _ _ _ t2 t16) (by rw [h1, h2]; rfl)) fun Cs' hCs' => ?_
  suffices hsuf : Traces _ ((mzedCling? C Cs').bind fun D => some D) _ by
    rw [Option.bind_fun_some] at hsuf
    exact hsuf
  refine Traces.congr (traces_bind (traces_inPlace _) fun D _ => ?_) (List.nil_append _)
  unfold mzdSliceAddmulKara? at hCs'
  rw [if_pos ⟨t2, t16⟩] at hCs'
  obtain ⟨x, -, rfl⟩ := Option.map_eq_some_iff.1 hCs'
  refine traces_before (Traces.congr (traces_times (traces_put _) _) (by rw [h1]; rfl)) (traces_before (Traces.congr (traces_times (traces_put _) _) (by rw [h3, h2]; rfl))
    (Traces.congr (traces_before (traces_times (traces_put _) _) (traces_pure D)) (List.append_nil _)))

/-- the traces of `mzed_mul` and `mzed_addmul` -/
theorem mulTop_traces {env : MulEnv} {A B C : Mzed} {MA MB MC : Nat → Nat → Elem ff} (hA : Rep A MA) (hB : Rep B MB) (hC : Rep C MC) (hfit : Fits C A B) : ∃ l l',
    Traces (mzedMulT env C A B) (mzedMul? env C A B) l ∧ Traces (mzedAddmulT env C A B) (mzedAddmul? env C A B) l' ∧
    (512 ≤ A.nrows ∧ 512 ≤ A.ncols ∧ 512 ≤ B.ncols → l = mulKaraTrace ff.degree A.nrows A.ncols B.ncols ∧ l' = mulKaraTrace ff.degree A.nrows A.ncols B.ncols) ∧
    (¬ (512 ≤ A.nrows ∧ 512 ≤ A.ncols ∧ 512 ≤ B.ncols) → ∃ cutoff fuel,
      l = mulTrace ff.degree (degreeToW ff.degree) cutoff fuel A.nrows A.ncols B.ncols ∧ l' = addmulTrace ff.degree (degreeToW ff.degree) cutoff fuel A.nrows A.ncols B.ncols) := by
  by_cases hs : 512 ≤ A.nrows ∧ 512 ≤ A.ncols ∧ 512 ≤ B.ncols
  · refine ⟨_, _, ?_, ?_, fun _ => ⟨rfl, rfl⟩, fun h => absurd hs h⟩
    · refine Traces.congr (traces_bind (traces_inPlace _) fun D hD => ?_) (List.nil_append _)
      obtain ⟨d1, d2, _, hR⟩ := mulInit_rep hC hD
      have hs' : A.nrows ≥ 512 ∧ A.ncols ≥ 512 ∧ B.ncols ≥ 512 := hs
      unfold mzedMulRaw?
      rw [if_pos hs', if_pos hs']
      exact addmulKaraT_traces hA hB hR d1 d2 hfit.inner
    · refine Traces.congr (traces_bind (traces_inPlace _) fun D hD => ?_) (List.nil_append _)
      obtain ⟨d1, d2, _, hR⟩ := mulInit_rep hC hD
      have hs' : A.nrows ≥ 512 ∧ A.ncols ≥ 512 ∧ B.ncols ≥ 512 := hs
      unfold mzedAddmulRaw?
      rw [if_pos hs', if_pos hs']
      exact addmulKaraT_traces hA hB hR d1 d2 hfit.inner
  · refine ⟨_, _, ?_, ?_, fun h => absurd h hs, fun _ => ⟨strassenCutoff env.sq env.l2 A.ff.degree A.w, strassenDepth A B, rfl, rfl⟩⟩
    · refine Traces.congr (traces_bind (traces_inPlace _) fun D hD => ?_) (List.nil_append _)
      obtain ⟨d1, d2, _, hR⟩ := mulInit_rep hC hD
      have hs' : ¬ (A.nrows ≥ 512 ∧ A.ncols ≥ 512 ∧ B.ncols ≥ 512) := hs
      unfold mzedMulRaw?
      rw [if_neg hs', if_neg hs']
      exact mulStrassen_traces _ _ ff _ _ _ _ D A B hA.wEq hR.ffEq hA.ffEq hB.ffEq d1 d2 rfl rfl rfl
    · refine Traces.congr (traces_bind (traces_inPlace _) fun D hD => ?_) (List.nil_append _)
      obtain ⟨d1, d2, _, hR⟩ := mulInit_rep hC hD
      have hs' : ¬ (A.nrows ≥ 512 ∧ A.ncols ≥ 512 ∧ B.ncols ≥ 512) := hs
      unfold mzedAddmulRaw?
      rw [if_neg hs', if_neg hs']
      exact addmulStrassen_traces _ _ ff _ _ _ _ D A B hA.wEq hR.ffEq hA.ffEq hB.ffEq d1 d2 rfl rfl rfl

section
variable {env : MulEnv} (henv : env.Ok ff.degree)
    {A B C : Mzed} {MA MB MC : Nat → Nat → Elem ff} (hA : Rep A MA) (hB : Rep B MB) (hC : Rep C MC) (hfit : Fits C A B)
include henv hA hB hC hfit

/-- **C78** `mzed_mul(C,A,B)` and `mzed_addmul(C,A,B)` give back what they take.  When all three dimensions are at least 512, they take exactly a sliced copy of each of the three matrices and the temporaries
of `mzd_slice_mul`; otherwise, besides eight tables, at most one matrix of the size of `C` or a third of what `A`, `B` and `C` take. -/
theorem C78_mul (hn : 0 < B.ncols) : ∃ R R' l l', mzedMulT env C A B [] = some (R, l) ∧ mzedAddmulT env C A B [] = some (R', l') ∧
    HoldsProduct R C A.ncols MC MA MB ∧ HoldsSumProduct R' C A.ncols MC MA MB ∧ inUse l = 0 ∧ inUse l' = 0 ∧
    (512 ≤ A.nrows ∧ 512 ≤ A.ncols ∧ 512 ≤ B.ncols → peak l' = peak l ∧
      peak l = ((slicedWords ff.degree A.nrows B.ncols + slicedWords ff.degree A.nrows A.ncols + slicedWords ff.degree A.ncols B.ncols +
        (if ff.degree = 2 then max (gf2Words A.nrows A.ncols + gf2Words A.ncols B.ncols) (gf2Words A.nrows B.ncols)
          else gf2Words A.nrows B.ncols + gf2Words A.nrows A.ncols + gf2Words A.ncols B.ncols) : Nat) : Int)) ∧
    (¬ (512 ≤ A.nrows ∧ 512 ≤ A.ncols ∧ 512 ≤ B.ncols) →
      3 * peak l ≤ (max (packedWords A.w A.ncols B.ncols + max (packedWords A.w A.nrows A.ncols) (packedWords A.w A.nrows B.ncols)) (3 * packedWords A.w A.nrows B.ncols) : Nat) +
        3 * (8 * (tableWords ff.degree A.w B.ncols : Int)) ∧
      3 * peak l' ≤ (max (packedWords A.w A.nrows A.ncols + packedWords A.w A.ncols B.ncols + packedWords A.w A.nrows B.ncols) (3 * packedWords A.w A.nrows B.ncols) : Nat) +
        3 * (8 * (tableWords ff.degree A.w B.ncols : Int))) := by
  obtain ⟨R, e, hR⟩ := C25_mul henv hA hB hC hfit hn
  obtain ⟨R', e', hR'⟩ := C25_addmul henv hA hB hC hfit hn
  obtain ⟨l, l', l1, l2, h1, h2⟩ := mulTop_traces (env := env) hA hB hC hfit
  have hw := okW_ff (ff := ff)
  have r1 : mzedMulT env C A B [] = some (R, l) := by rw [l1, e]; rfl
  have r2 : mzedAddmulT env C A B [] = some (R', l') := by rw [l2, e']; rfl
  rw [hA.wEq]
  by_cases hs : 512 ≤ A.nrows ∧ 512 ≤ A.ncols ∧ 512 ≤ B.ncols
  · obtain ⟨rfl, rfl⟩ := h1 hs
    obtain ⟨s1, s2⟩ := mulKaraTrace_size ff.degree A.nrows A.ncols B.ncols
    exact ⟨R, R', _, _, r1, r2, hR, hR', s1, s1, fun _ => ⟨rfl, s2⟩, fun h => absurd hs h⟩
  · obtain ⟨cutoff, fuel, rfl, rfl⟩ := h2 hs
    obtain ⟨s1, s2⟩ := mulTrace_size ff.degree hw cutoff fuel A.nrows A.ncols B.ncols
    obtain ⟨t1, t2⟩ := addmulTrace_size ff.degree hw cutoff fuel A.nrows A.ncols B.ncols
    exact ⟨R, R', _, _, r1, r2, hR, hR', s1, t1, fun h => absurd h hs, fun _ => ⟨s2, t2⟩⟩

end

/-! ### Cases that meet the hypotheses -/

-- 70x65 times 65x3 over GF(2^8), sliced: 70 + 140 + 65 words
example : ∃ ff, ∃ _ : IsField ff, ∃ (A B C : Slice) (MA MB MC : Nat → Nat → Elem ff), SRep A MA ∧ SRep B MB ∧
    SRep C MC ∧ SFits C A B ∧ ff.degree ≠ 2 ∧ gf2Words A.nrows B.ncols + gf2Words A.nrows A.ncols + gf2Words A.ncols B.ncols = 275 ∧ MA 3 4 = 1 ∧ MC 5 5 = 1 := by
  obtain ⟨ff, h, hd⟩ := exists_aes
  refine ⟨ff, h, Mat.spack (ff := ff) ⟨70, 65, 0, fun _ _ => 1⟩, Mat.spack (ff := ff) ⟨65, 3, 0, fun i j => if i = j then 1 else 0⟩,
    Mat.spack (ff := ff) ⟨70, 3, 0, fun i _ => if i = 5 then 1 else 0⟩, _, _, _, spack_rep _, spack_rep _, spack_rep _, ?_, ?_, ?_, ?_, ?_⟩
  · exact ⟨rfl, rfl, rfl, rfl, rfl⟩
  · rw [hd]; decide
  · show gf2Words 70 3 + gf2Words 70 65 + gf2Words 65 3 = 275
    decide
  · simp
  · simp

-- 64x64 = 2^2 16 over GF(2^8), packed, cutoff 16: (2·512 + 32) / 3 = 352 words and eight tables of 128 + 512 + 16 = 656 words
example : ∃ ff, ∃ _ : IsField ff, ∃ cb : Codebook, cb.Ok ff.degree ∧ ∃ (A B C : Mzed) (MA MB MC : Nat → Nat → Elem ff), Rep A MA ∧ Rep B MB ∧
    Rep C MC ∧ Fits C A B ∧ ff.degree ≤ 16 ∧ 64 / A.w ∣ 16 ∧ 128 / A.w ≤ 16 + 1 ∧ A.nrows = 2 ^ 2 * 16 ∧ A.ncols = 2 ^ 2 * 16 ∧ B.ncols = 2 ^ 2 * 16 ∧
    packedWords A.w A.nrows A.ncols = 512 ∧ packedWords A.w 16 16 = 32 ∧ tableWords ff.degree A.w 16 = 656 ∧ MA 3 4 = 1 ∧ MC 5 5 = 1 := by
  obtain ⟨ff, h, hd⟩ := exists_aes
  refine ⟨ff, h, grayCode, grayCode_ok _, Mat.pack (ff := ff) ⟨64, 64, 0, fun _ _ => 1⟩, Mat.pack (ff := ff) ⟨64, 64, 0, fun i j => if i = j then 1 else 0⟩,
    Mat.pack (ff := ff) ⟨64, 64, 0, fun i _ => if i = 5 then 1 else 0⟩, _, _, _, pack_rep _, pack_rep _, pack_rep _, ?_, ?_, ?_, ?_, ?_, ?_, ?_, ?_, ?_, ?_, ?_, ?_⟩
  · constructor <;> simp only [pack_nrows, pack_ncols, pack_fid]
  · rw [hd]; decide
  · rw [pack_w, hd]; decide
  · rw [pack_w, hd]; decide
  · rw [pack_nrows]; norm_num
  · rw [pack_ncols]; norm_num
  · rw [pack_ncols]; norm_num
  · rw [pack_w, pack_nrows, pack_ncols, hd]
    show packedWords (degreeToW 8) 64 64 = 512
    decide
  · rw [pack_w, hd]; decide
  · rw [pack_w, hd]; decide
  · simp
  · simp

-- 1000x1 times 1x1000 over GF(2^8), packed, cutoff 16: a copy of all of C, 125000 words
example : ∃ ff, ∃ _ : IsField ff, ∃ cb : Codebook, cb.Ok ff.degree ∧ ∃ (A B C : Mzed) (MA MB MC : Nat → Nat → Elem ff), Rep A MA ∧ Rep B MB ∧
    Rep C MC ∧ Fits C A B ∧ 0 < A.ncols ∧ (A.ncols : Int) ≤ 16 ∧ 128 / (B.w : Int) ≤ 16 + 1 ∧ packedWords A.w A.nrows B.ncols = 125000 ∧ MA 3 4 = 1 ∧ MC 5 5 = 1 := by
  obtain ⟨ff, h, hd⟩ := exists_aes
  refine ⟨ff, h, grayCode, grayCode_ok _, Mat.pack (ff := ff) ⟨1000, 1, 0, fun _ _ => 1⟩, Mat.pack (ff := ff) ⟨1, 1000, 0, fun i j => if i = j then 1 else 0⟩,
    Mat.pack (ff := ff) ⟨1000, 1000, 0, fun i _ => if i = 5 then 1 else 0⟩, _, _, _, pack_rep _, pack_rep _, pack_rep _, ?_, ?_, ?_, ?_, ?_, ?_, ?_⟩
  · constructor <;> simp only [pack_nrows, pack_ncols, pack_fid]
  · rw [pack_ncols]; norm_num
  · rw [pack_ncols]; norm_num
  · rw [pack_w, hd]; decide
  · rw [pack_w, pack_nrows, pack_ncols, hd]
    show packedWords (degreeToW 8) 1000 1000 = 125000
    rfl
  · simp
  · simp

-- 600x512 times 512x520 (Karatsuba) and 100x3 times 3x1 (Newton-John) over GF(2^8), with a 1 MB cache
example : ∃ ff, ∃ _ : IsField ff, ff.degree = 8 ∧ ∃ env : MulEnv, env.Ok ff.degree ∧ (∃ (A B C : Mzed) (MA MB MC : Nat → Nat → Elem ff),
    Rep A MA ∧ Rep B MB ∧ Rep C MC ∧ Fits C A B ∧ A.nrows = 600 ∧ A.ncols = 512 ∧ B.ncols = 520 ∧ MA 3 4 = 1 ∧ MC 5 5 = 1) ∧
    (∃ (A B C : Mzed) (MA MB MC : Nat → Nat → Elem ff),
    Rep A MA ∧ Rep B MB ∧ Rep C MC ∧ Fits C A B ∧ A.nrows = 100 ∧ A.ncols = 3 ∧ B.ncols = 1 ∧ MA 3 4 = 1 ∧ MC 5 5 = 1) := by
  obtain ⟨ff, h, hd⟩ := exists_aes
  refine ⟨ff, h, hd, ⟨grayCode, 2048, Nat.sqrt, 1048576⟩, ⟨grayCode_ok _, by norm_num, rfl, by norm_num⟩, ?_, ?_⟩
  · refine ⟨Mat.pack (ff := ff) ⟨600, 512, 0, fun _ _ => 1⟩, Mat.pack (ff := ff) ⟨512, 520, 0, fun i j => if i = j then 1 else 0⟩,
      Mat.pack (ff := ff) ⟨600, 520, 0, fun i _ => if i = 5 then 1 else 0⟩, _, _, _, pack_rep _, pack_rep _, pack_rep _, ?_, ?_, ?_, ?_, ?_, ?_⟩
    · constructor <;> simp only [pack_nrows, pack_ncols, pack_fid]
    all_goals simp [pack_nrows, pack_ncols]
  · refine ⟨Mat.pack (ff := ff) ⟨100, 3, 0, fun _ _ => 1⟩, Mat.pack (ff := ff) ⟨3, 1, 0, fun i j => if i = j then 1 else 0⟩,
      Mat.pack (ff := ff) ⟨100, 1, 0, fun i _ => if i = 5 then 1 else 0⟩, _, _, _, pack_rep _, pack_rep _, pack_rep _, ?_, ?_, ?_, ?_, ?_, ?_⟩
    · constructor <;> simp only [pack_nrows, pack_ncols, pack_fid]
    all_goals simp [pack_nrows, pack_ncols]

end M4rie.Props
