import Verif.Props.Kara
import Verif.Props.Slice
import Verif.Props.NewtonJohn
import Verif.Props.ViewPrograms

/-!
# Property C70 (algebraic laws hold word for word), and consequences for C42 and C44
-/

namespace M4rie.Props
open M4rie M4rie.Spec

variable {ff : Gf2e} [IsField ff]

/-- packed matrices of the same shape storing the same elements are equal -/
theorem rep_ext {R R' C : Mzed} {M M' : Nat → Nat → Elem ff} (h : Rep R M) (h' : Rep R' M') (hd : SameDim R C) (hd' : SameDim R' C) (he : M = M') :
    R = R' := by rw [h.eq_pack hd, h'.eq_pack hd', he]

omit [IsField ff] in
theorem srep_ext {R R' C : Slice} {M M' : Nat → Nat → Elem ff} (h : SRep R M) (h' : SRep R' M') (hd : SSameDim R C) (hd' : SSameDim R' C) (he : M = M') :
    R = R' := by rw [h.eq_spack hd, h'.eq_spack hd', he]

/-! ### sums of products -/

theorem sum_assoc (MA MB MD : Nat → Nat → Elem ff) (k l i j : Nat) :
    ∑ t ∈ Finset.range l, (∑ u ∈ Finset.range k, MA i u * MB u t) * MD t j =
      ∑ u ∈ Finset.range k, MA i u * ∑ t ∈ Finset.range l, MB u t * MD t j := by
  simp only [Finset.sum_mul, Finset.mul_sum]
  rw [Finset.sum_comm]
  simp only [mul_assoc]

/-! ### packed matrices -/
section packed
variable {A B C D T T' : Mzed} {MA MB MC MD MT MT' : Nat → Nat → Elem ff} {env : MulEnv}

theorem mul25 (hA : Rep A MA) (hB : Rep B MB) (hC : Rep C MC) (h : Fits C A B) (henv : env.Ok ff.degree) (hn : 0 < B.ncols) :
    ∃ R, mzedMul? env C A B = some R ∧ HoldsProduct R C A.ncols MC MA MB := C25_mul henv hA hB hC h hn

theorem addmul25 (hA : Rep A MA) (hB : Rep B MB) (hC : Rep C MC) (h : Fits C A B) (henv : env.Ok ff.degree) (hn : 0 < B.ncols) :
    ∃ R, mzedAddmul? env C A B = some R ∧ HoldsSumProduct R C A.ncols MC MA MB := C25_addmul henv hA hB hC h hn

/-- **C70** `mzed_mul` is associative: `(A B) D` and `A (B D)`, computed into matrices of the right shape with any contents, are equal word for word. -/
theorem C70_mul_assoc (henv : env.Ok ff.degree) (hA : Rep A MA) (hB : Rep B MB) (hD : Rep D MD) (hC : Rep C MC) (hT : Rep T MT) (hT' : Rep T' MT')
    (f1 : Fits T A B) (f2 : Fits T' B D) (hr : C.nrows = A.nrows) (hc : C.ncols = D.ncols) (hf : C.fid = A.fid) (hn : 0 < B.ncols) (hn' : 0 < D.ncols) :
    ∃ P Q R, mzedMul? env T A B = some P ∧ mzedMul? env C P D = some R ∧ mzedMul? env T' B D = some Q ∧ mzedMul? env C A Q = some R := by
  obtain ⟨P, p1, p2, p3⟩ := mul25 hA hB hT f1 henv hn
  obtain ⟨Q, q1, q2, q3⟩ := mul25 hB hD hT' f2 henv hn'
  obtain ⟨R, r1, r2, r3⟩ := mul25 p3 hD hC ⟨by rw [p2.ncols, f1.cols, f2.inner], by rw [p2.fid, f1.fieldC, f1.field, f2.field],
    by rw [hf, p2.fid, f1.fieldC], by rw [hr, p2.nrows, f1.rows], hc⟩ henv hn'
  obtain ⟨R', s1, s2, s3⟩ := mul25 hA q3 hC ⟨by rw [q2.nrows, f2.rows, f1.inner], by rw [q2.fid, f2.fieldC, f1.field],
    hf, hr, by rw [hc, q2.ncols, f2.cols]⟩ henv (by rw [q2.ncols, f2.cols]; exact hn')
  refine ⟨P, Q, R, p1, r1, q1, s1.trans (congrArg some (rep_ext s3 r3 s2 r2 ?_))⟩
  funext i j
  by_cases h : i < C.nrows ∧ j < C.ncols
  · rw [if_pos h, if_pos h]
    have e1 : ∀ t, t < P.ncols → (if i < T.nrows ∧ t < T.ncols then ∑ u ∈ Finset.range A.ncols, MA i u * MB u t else MT i t) =
        ∑ u ∈ Finset.range A.ncols, MA i u * MB u t := fun t ht => if_pos ⟨by rw [f1.rows, ← hr]; exact h.1, by rw [← p2.ncols]; exact ht⟩
    have e2 : ∀ t, t < A.ncols → (if t < T'.nrows ∧ j < T'.ncols then ∑ u ∈ Finset.range B.ncols, MB t u * MD u j else MT' t j) =
        ∑ u ∈ Finset.range B.ncols, MB t u * MD u j := fun t ht => if_pos ⟨by rw [f2.rows, ← f1.inner]; exact ht, by rw [f2.cols, ← hc]; exact h.2⟩
    rw [Finset.sum_congr rfl fun t ht => congrArg (MA i t * ·) (e2 t (Finset.mem_range.1 ht)), ← sum_assoc, p2.ncols]
    rw [f1.cols] at e1 ⊢
    exact (Finset.sum_congr rfl fun t ht => congrArg (· * MD t j) (e1 t (by rw [p2.ncols, f1.cols]; exact Finset.mem_range.1 ht))).symm
  · rw [if_neg h, if_neg h]

/-- **C70** `mzed_mul` distributes over `mzed_add` from the left: `A (B + D) = A B + A D`. -/
theorem C70_mul_add (henv : env.Ok ff.degree) (hA : Rep A MA) (hB : Rep B MB) (hD : Rep D MD) (hC : Rep C MC) (hT : Rep T MT) (hT' : Rep T' MT')
    (f1 : Fits C A B) (hd : SameDim D B) (ht : SameDim T B) (ht' : SameDim T' C) (hn : 0 < B.ncols) :
    ∃ S P Q R, mzedAdd? T B D = some S ∧ mzedMul? env C A S = some R ∧ mzedMul? env C A B = some P ∧ mzedMul? env T' A D = some Q ∧ mzedAdd? C P Q = some R := by
  obtain ⟨S, s1, s2, s3⟩ := C17_add hB hD hT hd ht
  obtain ⟨P, p1, p2, p3⟩ := mul25 hA hB hC f1 henv hn
  obtain ⟨Q, q1, q2, q3⟩ := mul25 hA hD hT' ⟨by rw [hd.nrows, f1.inner], by rw [hd.fid, f1.field], by rw [ht'.fid, f1.fieldC], by rw [ht'.nrows, f1.rows],
    by rw [ht'.ncols, hd.ncols, f1.cols]⟩ henv (by rw [hd.ncols]; exact hn)
  obtain ⟨R, r1, r2, r3⟩ := mul25 hA s3 hC ⟨by rw [s2.nrows, f1.inner], by rw [s2.fid, f1.field], f1.fieldC, f1.rows, by rw [s2.ncols, f1.cols]⟩ henv
    (by rw [s2.ncols]; exact hn)
  obtain ⟨R', u1, u2, u3⟩ := C17_add p3 q3 hC ⟨by rw [q2.nrows, ht'.nrows, p2.nrows], by rw [q2.ncols, ht'.ncols, p2.ncols], by rw [q2.fid, ht'.fid, p2.fid]⟩
    ⟨p2.nrows.symm, p2.ncols.symm, p2.fid.symm⟩
  refine ⟨S, P, Q, R, s1, r1, p1, q1, u1.trans (congrArg some (rep_ext u3 r3 (u2.trans p2) r2 ?_))⟩
  funext i j
  rw [p2.nrows, p2.ncols, ht'.nrows, ht'.ncols]
  by_cases h : i < C.nrows ∧ j < C.ncols
  · simp only [if_pos h]
    rw [← Finset.sum_add_distrib]
    refine Finset.sum_congr rfl fun t hk => ?_
    rw [if_pos ⟨by rw [← f1.inner]; exact Finset.mem_range.1 hk, by rw [← f1.cols]; exact h.2⟩, mul_add]
  · simp only [if_neg h]

/-- **C70** ... and from the right: `(A + D) B = A B + D B`. -/
theorem C70_add_mul (henv : env.Ok ff.degree) (hA : Rep A MA) (hB : Rep B MB) (hD : Rep D MD) (hC : Rep C MC) (hT : Rep T MT) (hT' : Rep T' MT')
    (f1 : Fits C A B) (hd : SameDim D A) (ht : SameDim T A) (ht' : SameDim T' C) (hn : 0 < B.ncols) :
    ∃ S P Q R, mzedAdd? T A D = some S ∧ mzedMul? env C S B = some R ∧ mzedMul? env C A B = some P ∧ mzedMul? env T' D B = some Q ∧ mzedAdd? C P Q = some R := by
  obtain ⟨S, s1, s2, s3⟩ := C17_add hA hD hT hd ht
  obtain ⟨P, p1, p2, p3⟩ := mul25 hA hB hC f1 henv hn
  obtain ⟨Q, q1, q2, q3⟩ := mul25 hD hB hT' ⟨by rw [hd.ncols, f1.inner], by rw [hd.fid, f1.field], by rw [ht'.fid, f1.fieldC, hd.fid],
    by rw [ht'.nrows, f1.rows, hd.nrows], by rw [ht'.ncols, f1.cols]⟩ henv hn
  obtain ⟨R, r1, r2, r3⟩ := mul25 s3 hB hC ⟨by rw [s2.ncols, f1.inner], by rw [s2.fid, f1.field], by rw [s2.fid, f1.fieldC], by rw [s2.nrows, f1.rows], f1.cols⟩ henv hn
  obtain ⟨R', u1, u2, u3⟩ := C17_add p3 q3 hC ⟨by rw [q2.nrows, ht'.nrows, p2.nrows], by rw [q2.ncols, ht'.ncols, p2.ncols], by rw [q2.fid, ht'.fid, p2.fid]⟩
    ⟨p2.nrows.symm, p2.ncols.symm, p2.fid.symm⟩
  refine ⟨S, P, Q, R, s1, r1, p1, q1, u1.trans (congrArg some (rep_ext u3 r3 (u2.trans p2) r2 ?_))⟩
  funext i j
  rw [p2.nrows, p2.ncols, ht'.nrows, ht'.ncols]
  by_cases h : i < C.nrows ∧ j < C.ncols
  · simp only [if_pos h]
    rw [hd.ncols, s2.ncols, ← Finset.sum_add_distrib]
    refine Finset.sum_congr rfl fun t hk => ?_
    rw [if_pos ⟨by rw [← f1.rows]; exact h.1, Finset.mem_range.1 hk⟩, add_mul]
  · simp only [if_neg h]

/-- **C70** `mzed_addmul(C,A,B)` is `mzed_add(C, C, mzed_mul(T,A,B))`. -/
theorem C70_addmul_eq (henv : env.Ok ff.degree) (hA : Rep A MA) (hB : Rep B MB) (hC : Rep C MC) (hT : Rep T MT) (f1 : Fits C A B) (ht : SameDim T C) (hn : 0 < B.ncols) :
    ∃ P R, mzedAddmul? env C A B = some R ∧ mzedMul? env T A B = some P ∧ mzedAdd? C C P = some R := by
  obtain ⟨P, p1, p2, p3⟩ := mul25 hA hB hT ⟨f1.inner, f1.field, by rw [ht.fid, f1.fieldC], by rw [ht.nrows, f1.rows], by rw [ht.ncols, f1.cols]⟩ henv hn
  obtain ⟨R, r1, r2, r3⟩ := addmul25 hA hB hC f1 henv hn
  obtain ⟨R', u1, u2, u3⟩ := C17_add hC p3 hC ⟨by rw [p2.nrows, ht.nrows], by rw [p2.ncols, ht.ncols], by rw [p2.fid, ht.fid]⟩ (SameDim.refl C)
  refine ⟨P, R, r1, p1, u1.trans (congrArg some (rep_ext u3 r3 u2 r2 ?_))⟩
  funext i j
  rw [ht.nrows, ht.ncols]
  by_cases h : i < C.nrows ∧ j < C.ncols
  · simp only [if_pos h]
  · simp only [if_neg h]

/-- **C70** scalars can be moved: `a (A B) = (a A) B = A (a B)`. -/
theorem C70_scalar (henv : env.Ok ff.degree) (hA : Rep A MA) (hB : Rep B MB) (hC : Rep C MC) (hT : Rep T MT) (hT' : Rep T' MT')
    (f1 : Fits C A B) (ht : SameDim T A) (ht' : SameDim T' B) (hn : 0 < B.ncols) (hk : 0 < A.ncols) (a : Elem ff)
    (hdeg : (ff.degree ≠ 3 ∧ ff.degree ≠ 5 ∧ ff.degree ≠ 6 ∧ ff.degree ≠ 7) ∨
      (A.nrows * A.ncols < 2 ^ 17 ∧ B.nrows * B.ncols < 2 ^ 17 ∧ C.nrows * C.ncols < 2 ^ 17)) :
    ∃ P S S' R, mzedMul? env C A B = some P ∧ mzedMulScalar? C a.1 P = some R ∧ mzedMulScalar? T a.1 A = some S ∧ mzedMul? env C S B = some R ∧
      mzedMulScalar? T' a.1 B = some S' ∧ mzedMul? env C A S' = some R := by
  obtain ⟨P, p1, p2, p3⟩ := mul25 hA hB hC f1 henv hn
  obtain ⟨R, r1, r2, r3⟩ := C18_mul_scalar p3 hC ⟨p2.nrows.symm, p2.ncols.symm, p2.fid.symm⟩ (by rw [p2.ncols, f1.cols]; exact hn) a
    (hdeg.imp id fun h => by rw [p2.nrows, p2.ncols]; exact h.2.2)
  obtain ⟨S, s1, s2, s3⟩ := C18_mul_scalar hA hT ht hk a (hdeg.imp id fun h => h.1)
  obtain ⟨S', q1, q2, q3⟩ := C18_mul_scalar hB hT' ht' hn a (hdeg.imp id fun h => h.2.1)
  obtain ⟨R1, u1, u2, u3⟩ := mul25 s3 hB hC ⟨by rw [s2.ncols, f1.inner], by rw [s2.fid, f1.field], by rw [s2.fid, f1.fieldC], by rw [s2.nrows, f1.rows], f1.cols⟩ henv hn
  obtain ⟨R2, v1, v2, v3⟩ := mul25 hA q3 hC ⟨by rw [q2.nrows, f1.inner], by rw [q2.fid, f1.field], f1.fieldC, f1.rows, by rw [q2.ncols, f1.cols]⟩ henv
    (by rw [q2.ncols]; exact hn)
  refine ⟨P, S, S', R, p1, r1, s1, u1.trans (congrArg some (rep_ext u3 r3 u2 (r2.trans p2) ?_)), q1,
    v1.trans (congrArg some (rep_ext v3 r3 v2 (r2.trans p2) ?_))⟩
  · funext i j
    rw [p2.nrows, p2.ncols]
    by_cases h : i < C.nrows ∧ j < C.ncols
    · simp only [if_pos h]
      rw [Finset.mul_sum, s2.ncols]
      refine Finset.sum_congr rfl fun t hk => ?_
      rw [if_pos ⟨by rw [← f1.rows]; exact h.1, Finset.mem_range.1 hk⟩, mul_assoc]
    · simp only [if_neg h]
  · funext i j
    rw [p2.nrows, p2.ncols]
    by_cases h : i < C.nrows ∧ j < C.ncols
    · simp only [if_pos h]
      rw [Finset.mul_sum]
      refine Finset.sum_congr rfl fun t hk => ?_
      rw [if_pos ⟨by rw [← f1.inner]; exact Finset.mem_range.1 hk, by rw [← f1.cols]; exact h.2⟩]
      ring
    · simp only [if_neg h]

/-- **C70** `mzed_add` is commutative and associative, and adding the same matrix twice changes nothing. -/
theorem C70_add (hA : Rep A MA) (hB : Rep B MB) (hD : Rep D MD) (hC : Rep C MC) (hb : SameDim B A) (hd : SameDim D A) (hc : SameDim C A) :
    ∃ S S' R Z, mzedAdd? C A B = some S ∧ mzedAdd? C B A = some S ∧ mzedAdd? C B D = some S' ∧ mzedAdd? C S D = some R ∧ mzedAdd? C A S' = some R ∧
      mzedAdd? A S B = some Z ∧ Z = A := by
  have tr : ∀ {X Y : Mzed}, SameDim X A → SameDim Y A → SameDim X Y := fun h h' => ⟨h.1.trans h'.1.symm, h.2.trans h'.2.symm, h.3.trans h'.3.symm⟩
  obtain ⟨S, s1, s2, s3⟩ := C17_add hA hB hC hb hc
  obtain ⟨S1, t1, t2, t3⟩ := C17_add hB hA hC (tr (SameDim.refl A) hb) (tr hc hb)
  obtain ⟨S', u1, u2, u3⟩ := C17_add hB hD hC (tr hd hb) (tr hc hb)
  obtain ⟨R, r1, r2, r3⟩ := C17_add s3 hD hC (tr hd s2) (tr hc s2)
  obtain ⟨R1, q1, q2, q3⟩ := C17_add hA u3 hC (u2.trans hb) hc
  obtain ⟨Z, z1, z2, z3⟩ := C17_add s3 hB hA (tr hb s2) (tr (SameDim.refl A) s2)
  refine ⟨S, S', R, Z, s1, t1.trans (congrArg some (rep_ext t3 s3 (t2.trans hb) s2 ?_)), u1, r1,
    q1.trans (congrArg some (rep_ext q3 r3 q2 (r2.trans s2) ?_)), z1, rep_ext z3 hA (z2.trans s2) (SameDim.refl A) ?_⟩
  · funext i j
    rw [hb.nrows, hb.ncols, add_comm]
  · funext i j
    rw [s2.nrows, s2.ncols, hb.nrows, hb.ncols]
    by_cases h : i < A.nrows ∧ j < A.ncols
    · simp only [if_pos h, add_assoc]
    · simp only [if_neg h]
  · funext i j
    rw [s2.nrows, s2.ncols]
    by_cases h : i < A.nrows ∧ j < A.ncols
    · simp only [if_pos h]
      rw [add_assoc, Elem.add_self, add_zero]
    · simp only [if_neg h]

/-- **C44** `set_ui(I,1)` is an identity for `mzed_mul` on both sides: the product is word for word what copying the other operand gives. -/
theorem C44_mul_identity {I J : Mzed} {MI MJ : Nat → Nat → Elem ff} (henv : env.Ok ff.degree) (hA : Rep A MA) (hC : Rep C MC) (hI : Rep I MI) (hJ : Rep J MJ)
    (hd : SameDim C A) (hi : I.nrows = A.ncols) (hi' : I.ncols = A.ncols) (hif : I.fid = A.fid) (hj : J.nrows = A.nrows) (hj' : J.ncols = A.nrows)
    (hjf : J.fid = A.fid) (hn : 0 < A.ncols) :
    ∃ R, mzedMul? env C A (mzedSetUi I 1#64) = some R ∧ mzedMul? env C (mzedSetUi J 1#64) A = some R ∧ mzedCopy? C A = some R ∧ SameDim R A ∧
      ∀ i j, i < A.nrows → j < A.ncols → mzedReadElem R i j = mzedReadElem A i j := by
  obtain ⟨s1, s2⟩ := hI.setUi (1 : Elem ff)
  obtain ⟨t1, t2⟩ := hJ.setUi (1 : Elem ff)
  have e : ((1 : Elem ff).1) = 1#64 := rfl
  rw [e] at s1 s2 t1 t2
  obtain ⟨R, r1, r2, r3⟩ := mul25 hA s1 hC ⟨by rw [s2.nrows, hi], by rw [s2.fid, hif], hd.fid, hd.nrows, by rw [s2.ncols, hi', hd.ncols]⟩ henv
    (by rw [s2.ncols, hi']; exact hn)
  obtain ⟨Q, q1, q2, q3⟩ := mul25 t1 hA hC ⟨by rw [t2.ncols, hj'], by rw [t2.fid, hjf], by rw [t2.fid, hjf, hd.fid], by rw [t2.nrows, hj, hd.nrows], hd.ncols⟩ henv hn
  obtain ⟨P, p1, p2, p3⟩ := C43_copy hA hC hd
  have hR : R = P := by
    refine rep_ext r3 p3 (r2.trans hd) p2 ?_
    funext i j
    rw [hd.nrows, hd.ncols]
    by_cases h : i < A.nrows ∧ j < A.ncols
    · rw [if_pos h, if_pos h, Finset.sum_eq_single j]
      · beta_reduce
        rw [if_pos ⟨by rw [hi]; exact h.2, by rw [hi']; exact h.2⟩, if_pos rfl, mul_one]
      · intro t ht htj
        beta_reduce
        rw [if_pos ⟨by rw [hi]; exact Finset.mem_range.1 ht, by rw [hi']; exact h.2⟩, if_neg htj, mul_zero]
      · intro hx; exact absurd (Finset.mem_range.2 h.2) hx
    · rw [if_neg h, if_neg h]
  have hQ : Q = P := by
    refine rep_ext q3 p3 (q2.trans hd) p2 ?_
    funext i j
    rw [hd.nrows, hd.ncols]
    by_cases h : i < A.nrows ∧ j < A.ncols
    · rw [if_pos h, if_pos h, Finset.sum_eq_single i]
      · beta_reduce
        rw [if_pos ⟨by rw [hj]; exact h.1, by rw [hj']; exact h.1⟩, if_pos rfl, one_mul]
      · intro t ht hti
        beta_reduce
        rw [if_pos ⟨by rw [hj]; exact h.1, by rw [← t2.ncols]; exact Finset.mem_range.1 ht⟩, if_neg (Ne.symm hti), zero_mul]
      · intro hx; exact absurd (Finset.mem_range.2 (by rw [t2.ncols, hj']; exact h.1)) hx
    · rw [if_neg h, if_neg h]
  subst hR hQ
  refine ⟨_, r1, q1, p1, p2, fun i j hi hj => ?_⟩
  rw [p3.read, hA.read, if_pos ⟨hi, hj⟩]

/-- **C70** what `mzed_invert_newton_john` returns undoes the multiplication by `A`: `A⁻¹ (A X) = X`, word for word a copy of `X`. -/
theorem C70_inverse {cb : Codebook} {optK : Nat} {small : Bool} {X : Mzed} {MX : Nat → Nat → Elem ff} (hcb : cb.Ok ff.degree) (henv : env.Ok ff.degree)
    (hA : Rep A MA) (hX : Rep X MX) (hC : Rep C MC) (hT : Rep T MT) (hsq : A.nrows = A.ncols) (f : Fits T A X) (hc : SameDim C X) (hn : 0 < X.ncols)
    (hB : mzedInvertNewtonJohn? cb optK small A = some B) :
    ∃ P R, mzedMul? env T A X = some P ∧ mzedMul? env C B P = some R ∧ mzedCopy? C X = some R := by
  obtain ⟨b1, N, hN, hinv⟩ := (C37_invert hcb optK small hA hsq).1 B hB
  obtain ⟨P, p1, p2, p3⟩ := mul25 hA hX hT f henv hn
  obtain ⟨R, r1, r2, r3⟩ := mul25 hN p3 hC ⟨by rw [b1.ncols, p2.nrows, f.rows, hsq], by rw [b1.fid, p2.fid, f.fieldC], by rw [hc.fid, b1.fid, f.field],
    by rw [hc.nrows, b1.nrows, ← f.inner, hsq], by rw [hc.ncols, p2.ncols, f.cols]⟩ henv (by rw [p2.ncols, f.cols]; exact hn)
  obtain ⟨Q, q1, q2, q3⟩ := C43_copy hX hC hc
  refine ⟨P, R, p1, r1, q1.trans (congrArg some (rep_ext q3 r3 q2 (r2.trans hc) ?_))⟩
  funext i j
  rw [hc.nrows, hc.ncols]
  by_cases h : i < X.nrows ∧ j < X.ncols
  · have hi : i < A.nrows := by rw [hsq, f.inner]; exact h.1
    rw [if_pos h, if_pos h, b1.ncols, Finset.sum_congr rfl fun t ht => congrArg (N i t * ·) (if_pos (c := t < T.nrows ∧ j < T.ncols)
      (t := ∑ u ∈ Finset.range A.ncols, MA t u * MX u j) (e := MT t j)
      ⟨by rw [f.rows, hsq]; exact Finset.mem_range.1 ht, by rw [f.cols]; exact h.2⟩), ← sum_assoc N MA MX A.ncols A.ncols i j]
    rw [Finset.sum_congr rfl fun t ht => congrArg (· * MX t j) (show _ = (if i = t then (1 : Elem ff) else 0) from by
      rw [← hsq]; exact (hinv i t hi (by rw [hsq]; exact Finset.mem_range.1 ht)).2)]
    simp only [ite_mul, one_mul, zero_mul]
    rw [Finset.sum_ite_eq, if_pos (Finset.mem_range.2 (by rw [← hsq]; exact hi))]
  · rw [if_neg h, if_neg h]

-- a case meeting the hypotheses of the laws for packed matrices: 600 × 512 by 512 × 520 by 520 × 7 over GF(2^8), outputs holding other values before
example : ∃ ff, ∃ _ : IsField ff, ff.degree = 8 ∧ ∃ env : MulEnv, env.Ok ff.degree ∧ ∃ (A B D C T T' : Mzed) (MA MB MD MC MT MT' : Nat → Nat → Elem ff),
    Rep A MA ∧ Rep B MB ∧ Rep D MD ∧ Rep C MC ∧ Rep T MT ∧ Rep T' MT' ∧ Fits T A B ∧ Fits T' B D ∧ C.nrows = A.nrows ∧ C.ncols = D.ncols ∧ C.fid = A.fid ∧
    0 < B.ncols ∧ 0 < D.ncols ∧ MA 3 4 = 1 ∧ MC 5 5 = 1 := by
  obtain ⟨ff, h, hd⟩ := exists_aes
  refine ⟨ff, h, hd, ⟨grayCode, 2048, Nat.sqrt, 1048576⟩, ⟨grayCode_ok _, by norm_num, rfl, by norm_num⟩, Mat.pack (ff := ff) ⟨600, 512, 0, fun _ _ => 1⟩,
    Mat.pack (ff := ff) ⟨512, 520, 0, fun i j => if i = j then 1 else 0⟩, Mat.pack (ff := ff) ⟨520, 7, 0, fun i _ => if i = 5 then 1 else 0⟩,
    Mat.pack (ff := ff) ⟨600, 7, 0, fun i _ => if i = 5 then 1 else 0⟩, Mat.pack (ff := ff) ⟨600, 520, 0, fun _ _ => 1⟩, Mat.pack (ff := ff) ⟨512, 7, 0, fun _ _ => 1⟩,
    _, _, _, _, _, _, pack_rep _, pack_rep _, pack_rep _, pack_rep _, pack_rep _, pack_rep _, ?_, ?_, ?_, ?_, ?_, ?_, ?_, ?_, ?_⟩
  · constructor <;> simp only [pack_nrows, pack_ncols, pack_fid]
  · constructor <;> simp only [pack_nrows, pack_ncols, pack_fid]
  all_goals simp [pack_nrows, pack_ncols, pack_fid]

end packed

/-! ### sliced matrices -/
section sliced
variable {A B C D T T' : Slice} {MA MB MC MD MT MT' : Nat → Nat → Elem ff}

/-- **C70** `mzd_slice_mul` is associative. -/
theorem C70_slice_mul_assoc (hA : SRep A MA) (hB : SRep B MB) (hD : SRep D MD) (hC : SRep C MC) (hT : SRep T MT) (hT' : SRep T' MT')
    (f1 : SFits T A B) (f2 : SFits T' B D) (hr : C.nrows = A.nrows) (hc : C.ncols = D.ncols) (hf : C.fid = A.fid) :
    ∃ P Q R, mzdSliceMulKaratsuba? T A B = some P ∧ mzdSliceMulKaratsuba? C P D = some R ∧ mzdSliceMulKaratsuba? T' B D = some Q ∧
      mzdSliceMulKaratsuba? C A Q = some R := by
  obtain ⟨P, p1, p2, p3⟩ := C28_mul hA hB hT f1
  obtain ⟨Q, q1, q2, q3⟩ := C28_mul hB hD hT' f2
  obtain ⟨R, r1, r2, r3⟩ := C28_mul p3 hD hC ⟨by rw [p2.ncols, f1.cols, f2.inner], by rw [p2.fid, f1.fieldC, f1.field, f2.field],
    by rw [hf, p2.fid, f1.fieldC], by rw [hr, p2.nrows, f1.rows], hc⟩
  obtain ⟨R', s1, s2, s3⟩ := C28_mul hA q3 hC ⟨by rw [q2.nrows, f2.rows, f1.inner], by rw [q2.fid, f2.fieldC, f1.field],
    hf, hr, by rw [hc, q2.ncols, f2.cols]⟩
  refine ⟨P, Q, R, p1, r1, q1, s1.trans (congrArg some (srep_ext s3 r3 s2 r2 ?_))⟩
  funext i j
  by_cases h : i < C.nrows ∧ j < C.ncols
  · rw [if_pos h, if_pos h]
    have e1 : ∀ t, t < P.ncols → (if i < T.nrows ∧ t < T.ncols then ∑ u ∈ Finset.range A.ncols, MA i u * MB u t else MT i t) =
        ∑ u ∈ Finset.range A.ncols, MA i u * MB u t := fun t ht => if_pos ⟨by rw [f1.rows, ← hr]; exact h.1, by rw [← p2.ncols]; exact ht⟩
    have e2 : ∀ t, t < A.ncols → (if t < T'.nrows ∧ j < T'.ncols then ∑ u ∈ Finset.range B.ncols, MB t u * MD u j else MT' t j) =
        ∑ u ∈ Finset.range B.ncols, MB t u * MD u j := fun t ht => if_pos ⟨by rw [f2.rows, ← f1.inner]; exact ht, by rw [f2.cols, ← hc]; exact h.2⟩
    rw [Finset.sum_congr rfl fun t ht => congrArg (MA i t * ·) (e2 t (Finset.mem_range.1 ht)), ← sum_assoc, p2.ncols]
    rw [f1.cols] at e1 ⊢
    exact (Finset.sum_congr rfl fun t ht => congrArg (· * MD t j) (e1 t (by rw [p2.ncols, f1.cols]; exact Finset.mem_range.1 ht))).symm
  · rw [if_neg h, if_neg h]

/-- **C70** `mzd_slice_mul` distributes over `mzd_slice_add` on both sides. -/
theorem C70_slice_mul_add (hA : SRep A MA) (hB : SRep B MB) (hD : SRep D MD) (hC : SRep C MC) (hT : SRep T MT) (hT' : SRep T' MT')
    (f1 : SFits C A B) (hd : SSameDim D B) (ht : SSameDim T B) (ht' : SSameDim T' C) :
    ∃ S P Q R, mzdSliceAdd? T B D = some S ∧ mzdSliceMulKaratsuba? C A S = some R ∧ mzdSliceMulKaratsuba? C A B = some P ∧
      mzdSliceMulKaratsuba? T' A D = some Q ∧ mzdSliceAdd? C P Q = some R := by
  obtain ⟨S, s1, s2, s3⟩ := C17_slice_add hB hD hT ⟨hd.1.symm, hd.2.symm, hd.3.symm⟩ ⟨ht.1.symm, ht.2.symm, ht.3.symm⟩
  obtain ⟨P, p1, p2, p3⟩ := C28_mul hA hB hC f1
  obtain ⟨Q, q1, q2, q3⟩ := C28_mul hA hD hT' ⟨by rw [hd.nrows, f1.inner], by rw [hd.fid, f1.field], by rw [ht'.fid, f1.fieldC], by rw [ht'.nrows, f1.rows],
    by rw [ht'.ncols, hd.ncols, f1.cols]⟩
  obtain ⟨R, r1, r2, r3⟩ := C28_mul hA s3 hC ⟨by rw [s2.nrows, ht.nrows, f1.inner], by rw [s2.fid, ht.fid, f1.field], f1.fieldC, f1.rows, by rw [s2.ncols, ht.ncols, f1.cols]⟩
  obtain ⟨R', u1, u2, u3⟩ := C17_slice_add p3 q3 hC ⟨by rw [q2.nrows, ht'.nrows, p2.nrows], by rw [q2.ncols, ht'.ncols, p2.ncols], by rw [q2.fid, ht'.fid, p2.fid]⟩
    ⟨p2.nrows, p2.ncols, p2.fid⟩
  refine ⟨S, P, Q, R, s1, r1, p1, q1, u1.trans (congrArg some (srep_ext u3 r3 u2 r2 ?_))⟩
  funext i j
  rw [p2.nrows, p2.ncols, ht'.nrows, ht'.ncols]
  by_cases h : i < C.nrows ∧ j < C.ncols
  · simp only [if_pos h]
    rw [← Finset.sum_add_distrib]
    refine Finset.sum_congr rfl fun t hk => ?_
    rw [if_pos ⟨by rw [← f1.inner]; exact Finset.mem_range.1 hk, by rw [← f1.cols]; exact h.2⟩, mul_add]
  · simp only [if_neg h]

end sliced

/-! ### converting and computing commute -/
section conversion
variable {A B C : Mzed} {SA SB S : Slice} {MA MB MC : Nat → Nat → Elem ff} {NA NB N : Nat → Nat → Elem ff} {env : MulEnv}

/-- **C70** slicing a packed product gives, word for word, the product of the sliced operands. -/
theorem C70_slice_mul (henv : env.Ok ff.degree) (hA : Rep A MA) (hB : Rep B MB) (hC : Rep C MC) (hSA : SRep SA NA) (hSB : SRep SB NB) (hS : SRep S N)
    (f : Fits C A B) (hn : 0 < B.ncols) (ha : SA.nrows = A.nrows) (ha' : SA.ncols = A.ncols) (haf : SA.fid = A.fid) (hb : SB.nrows = B.nrows)
    (hb' : SB.ncols = B.ncols) (hbf : SB.fid = B.fid) (hs : S.nrows = C.nrows) (hs' : S.ncols = C.ncols) (hsf : S.fid = C.fid) :
    ∃ R SA' SB' S', mzedMul? env C A B = some R ∧ mzedSlice? SA A = some SA' ∧ mzedSlice? SB B = some SB' ∧ mzdSliceMulKaratsuba? S SA' SB' = some S' ∧
      mzedSlice? S R = some S' := by
  obtain ⟨R, r1, r2, r3⟩ := mul25 hA hB hC f henv hn
  obtain ⟨A', a1, a2, a3⟩ := C26_slice hA hSA ha ha'
  obtain ⟨B', b1, b2, b3⟩ := C26_slice hB hSB hb hb'
  obtain ⟨S', s1, s2, s3⟩ := C28_mul a3 b3 hS ⟨by rw [a2.ncols, b2.nrows, ha', hb, f.inner], by rw [a2.fid, b2.fid, haf, hbf, f.field],
    by rw [hsf, a2.fid, haf, f.fieldC], by rw [hs, a2.nrows, ha, f.rows], by rw [hs', b2.ncols, hb', f.cols]⟩
  obtain ⟨S1, t1, t2, t3⟩ := C26_slice r3 hS (by rw [hs, r2.nrows]) (by rw [hs', r2.ncols])
  refine ⟨R, A', B', S', r1, a1, b1, s1, t1.trans (congrArg some (srep_ext t3 s3 t2 s2 ?_))⟩
  funext i j
  rw [r2.nrows, r2.ncols, hs, hs', a2.ncols, ha']
  by_cases h : i < C.nrows ∧ j < C.ncols
  · simp only [if_pos h]
    refine Finset.sum_congr rfl fun t ht => ?_
    have ht := Finset.mem_range.1 ht
    rw [if_pos ⟨by rw [← f.rows]; exact h.1, ht⟩, if_pos ⟨by rw [← f.inner]; exact ht, by rw [← f.cols]; exact h.2⟩]
  · simp only [if_neg h]

/-- **C70** packing a sliced product gives, word for word, the product of the packed operands. -/
theorem C70_cling_mul (henv : env.Ok ff.degree) (hA : Rep A MA) (hB : Rep B MB) (hC : Rep C MC) (hSA : SRep SA NA) (hSB : SRep SB NB) (hS : SRep S N)
    (f : SFits S SA SB) (hn : 0 < B.ncols) (ha : A.nrows = SA.nrows) (ha' : A.ncols = SA.ncols) (haf : A.fid = SA.fid) (hb : B.nrows = SB.nrows)
    (hb' : B.ncols = SB.ncols) (hbf : B.fid = SB.fid) (hs : C.nrows = S.nrows) (hs' : C.ncols = S.ncols) (hsf : C.fid = S.fid) :
    ∃ S' A' B' R, mzdSliceMulKaratsuba? S SA SB = some S' ∧ mzedCling? A SA = some A' ∧ mzedCling? B SB = some B' ∧ mzedMul? env C A' B' = some R ∧
      mzedCling? C S' = some R := by
  obtain ⟨S', s1, s2, s3⟩ := C28_mul hSA hSB hS f
  obtain ⟨A', a1, a2, a3⟩ := C26_cling hA hSA ha ha'
  obtain ⟨B', b1, b2, b3⟩ := C26_cling hB hSB hb hb'
  obtain ⟨R, r1, r2, r3⟩ := mul25 a3 b3 hC ⟨by rw [a2.ncols, b2.nrows, ha', hb, f.inner], by rw [a2.fid, b2.fid, haf, hbf, f.field],
    by rw [hsf, a2.fid, haf, f.fieldC], by rw [hs, a2.nrows, ha, f.rows], by rw [hs', b2.ncols, hb', f.cols]⟩ henv (by rw [b2.ncols]; exact hn)
  obtain ⟨R1, t1, t2, t3⟩ := C26_cling hC s3 (by rw [hs, s2.nrows]) (by rw [hs', s2.ncols])
  refine ⟨S', A', B', R, s1, a1, b1, r1, t1.trans (congrArg some (rep_ext t3 r3 t2 r2 ?_))⟩
  funext i j
  rw [s2.nrows, s2.ncols, hs, hs', a2.ncols, ha']
  by_cases h : i < S.nrows ∧ j < S.ncols
  · simp only [if_pos h]
    refine Finset.sum_congr rfl fun t ht => ?_
    have ht := Finset.mem_range.1 ht
    rw [if_pos ⟨by rw [← f.rows]; exact h.1, ht⟩, if_pos ⟨by rw [← f.inner]; exact ht, by rw [← f.cols]; exact h.2⟩]
  · simp only [if_neg h]

/-- **C70** slicing a packed sum gives, word for word, the sum of the sliced operands. -/
theorem C70_slice_add (hA : Rep A MA) (hB : Rep B MB) (hC : Rep C MC) (hSA : SRep SA NA) (hSB : SRep SB NB) (hS : SRep S N)
    (hd : SameDim B A) (hd' : SameDim C A) (ha : SA.nrows = A.nrows) (ha' : SA.ncols = A.ncols) (hb : SSameDim SB SA) (hs : SSameDim S SA) :
    ∃ R SA' SB' S', mzedAdd? C A B = some R ∧ mzedSlice? SA A = some SA' ∧ mzedSlice? SB B = some SB' ∧ mzdSliceAdd? S SA' SB' = some S' ∧
      mzedSlice? S R = some S' := by
  obtain ⟨R, r1, r2, r3⟩ := C17_add hA hB hC hd hd'
  obtain ⟨A', a1, a2, a3⟩ := C26_slice hA hSA ha ha'
  obtain ⟨B', b1, b2, b3⟩ := C26_slice hB hSB (by rw [hb.nrows, hd.nrows, ha]) (by rw [hb.ncols, hd.ncols, ha'])
  obtain ⟨S', s1, s2, s3⟩ := C17_slice_add a3 b3 hS ⟨by rw [a2.nrows, b2.nrows, hb.nrows], by rw [a2.ncols, b2.ncols, hb.ncols], by rw [a2.fid, b2.fid, hb.fid]⟩
    ⟨by rw [a2.nrows, hs.nrows], by rw [a2.ncols, hs.ncols], by rw [a2.fid, hs.fid]⟩
  obtain ⟨S1, t1, t2, t3⟩ := C26_slice r3 hS (by rw [hs.nrows, ha, r2.nrows]) (by rw [hs.ncols, ha', r2.ncols])
  refine ⟨R, A', B', S', r1, a1, b1, s1, t1.trans (congrArg some (srep_ext t3 s3 t2 s2 ?_))⟩
  funext i j
  rw [r2.nrows, r2.ncols, a2.nrows, a2.ncols, ha, ha', hd.nrows, hd.ncols]
  by_cases h : i < A.nrows ∧ j < A.ncols
  · simp only [if_pos h]
  · simp only [if_neg h]

end conversion

/-! ### C42 for programs -/
section programs
variable {pl : PLib} [IsField pl.ff]

/-- **C42** after any program (matrices, windows, permutations, all the library's calls) every element read from any matrix or window is below `2^e`. -/
theorem C42_history (hlib : PLibOk pl) {ops : List (WOp (Elem pl.ff))} {c : WPool} {s : WState (Elem pl.ff)} (h : WStores pl c s)
    (hs : WSafe (badScalar pl.toLib) (bitsOf pl) (alignedAt pl.toLib) s ops) :
    ∃ c' outs, M4rie.wrunProgram pl c ops = some (c', outs) ∧
      (∀ k A, c'.mats.look k = some (.packed A) → ∀ i j, (mzedReadElem A i j).toNat < 2 ^ pl.ff.degree) ∧
      (∀ k A, c'.mats.look k = some (.sliced A) → ∀ i j, (mzdSliceReadElem A i j).toNat < 2 ^ pl.ff.degree) := by
  obtain ⟨c', outs, s', e, -, hst⟩ := C67_history hlib ops h hs
  refine ⟨c', outs, e, fun k A hk i j => ?_, fun k A hk i j => ?_⟩
  · have := hst.look.1 k
    rw [show c'.look.mats k = _ from hk] at this
    rcases hx : s'.look.mat k with _ | ⟨_ | _, m, n, X⟩
    · rw [hx] at this; exact this.elim
    · rw [hx] at this
      obtain ⟨-, -, -, M, hM, -⟩ := this
      exact C42_canonical hM i j
    · rw [hx] at this; exact this.elim
  · have := hst.look.1 k
    rw [show c'.look.mats k = _ from hk] at this
    rcases hx : s'.look.mat k with _ | ⟨_ | _, m, n, X⟩
    · rw [hx] at this; exact this.elim
    · rw [hx] at this; exact this.elim
    · rw [hx] at this
      obtain ⟨-, -, -, M, hM, -⟩ := this
      rw [C47_read hM]
      exact (M i j).2

end programs
end M4rie.Props
