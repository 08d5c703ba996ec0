import Verif.Proofs.BlmSingle
import Verif.Proofs.KaraMul

/-! Multiplication through bilinear maps. -/

namespace M4rie
open Polynomial Spec Finset

theorem blmBit_exact {nr : Nat} {val : Nat → Nat → ZMod 2} {fn gn : Nat} {f : Blm} (h : BlmExact nr val fn gn f) {V : Nat → Nat → Bool} {j : Nat}
    (hj : j < nr) (hV : ∀ a b, a < fn → b < gn → gf2 (V (a + b) j) = val (a + b) j) (K : Nat) (A B : Nat → Nat → Nat → Word) (r c : Nat) :
    blmBit f K A B j r c = ∑ a ∈ range fn, ∑ b ∈ range gn, V (a + b) j * ∑ l ∈ range K, bitAt (A a) r l * bitAt (B b) l c := by
  obtain ⟨e1, e2, e3, e4, e5, e6⟩ := h
  have hx : ∀ a, a < fn → ∀ b, b < gn → V (a + b) j = ∑ k ∈ range f.F.nrows, bitAt f.H.w j k * (bitAt f.F.w k a * bitAt f.G.w k b) := by
    intro a ha b hb
    apply gf2_inj
    rw [hV a b ha hb, ← e6 j a b hj ha hb, ← gf2Hom_apply, map_sum]
    refine Finset.sum_congr rfl fun k _ => ?_
    rw [map_mul, map_mul]; rfl
  have rhs : ∀ a ∈ range fn, ∀ b ∈ range gn, V (a + b) j * ∑ l ∈ range K, bitAt (A a) r l * bitAt (B b) l c =
      ∑ k ∈ range f.F.nrows, bitAt f.H.w j k * ∑ l ∈ range K, (bitAt f.F.w k a * bitAt (A a) r l) * (bitAt f.G.w k b * bitAt (B b) l c) := by
    intro a ha b hb
    rw [hx a (mem_range.1 ha) b (mem_range.1 hb), sum_mul]
    refine Finset.sum_congr rfl fun k _ => ?_
    rw [mul_assoc, mul_sum]
    refine congrArg (bitAt f.H.w j k * ·) (Finset.sum_congr rfl fun l _ => ?_)
    ring
  rw [Finset.sum_congr rfl fun a ha => Finset.sum_congr rfl fun b hb => rhs a ha b hb]
  rw [Finset.sum_congr rfl fun a _ => sum_comm, sum_comm]
  unfold blmBit
  refine Finset.sum_congr rfl fun k _ => ?_
  simp only [← mul_sum]
  refine congrArg (bitAt f.H.w j k * ·) ?_
  rw [e4, e5, Finset.sum_congr rfl fun l _ => sum_mul_sum _ _ _ _, sum_comm]
  refine Finset.sum_congr rfl fun a _ => ?_
  rw [sum_comm]

/-- both application routines add the value of the map to zeroed matrices -/
theorem ptrApplyBlm_zero {f : Blm} (h1 : f.H.ncols = f.F.nrows) (h2 : f.F.nrows = f.G.nrows) (hd : DjbOk f) (m K n : Nat)
    (X A B : Nat → Nat → Nat → Word) (hX : f.djb ≠ none → ∀ j r c, j < f.H.nrows → r < m → c < n → bitAt (X j) r c = false) :
    ∃ X', ptrApplyBlm? f m K n X A B = some X' ∧
      ∀ j r c, bitAt (X' j) r c = bitAt (X j) r c + decide (r < m ∧ c < n ∧ j < f.H.nrows) * blmBit f K A B j r c := by
  unfold ptrApplyBlm?
  cases hdj : f.djb with
  | none => exact ptrApplyBlmMzd_bits h1 h2 m K n X A B
  | some d =>
    obtain ⟨pf, pg, ph⟩ := d
    obtain ⟨d1, d2, d3⟩ := hd pf pg ph hdj
    obtain ⟨X', e, hX'⟩ := ptrApplyBlmDjb_bits h1 h2 d1 d2 d3 m K n X A B
    refine ⟨X', e, fun j r c => ?_⟩
    rw [hX']
    by_cases hr : r < m ∧ c < n
    · by_cases hj : j < f.H.nrows
      · rw [decide_eq_true ⟨hr.1, hr.2, hj⟩, hX (by rw [hdj]; exact fun h => by cases h) j r c hj hr.1 hr.2]
        by_cases hT : djbTargets ph j
        · rw [if_pos ⟨hr.1, hr.2, hT⟩]
          exact ((zero_add _).trans (one_mul _)).symm
        · rw [if_neg (by tauto), blmBit_untargeted h1 d3 K A B hj hT r c]
          rfl
      · rw [decide_eq_false (by tauto), if_neg]
        · exact ((congrArg _ (zero_mul _)).trans (add_zero _)).symm
        · rintro ⟨_, _, o, ho, rfl⟩
          exact hj (d3.target o ho)
    · rw [decide_eq_false (by tauto), if_neg (by tauto)]
      exact ((congrArg _ (zero_mul _)).trans (add_zero _)).symm

section
variable {ff : Gf2e} [IsField ff]

theorem gBits_blmVal (t k : Nat) (h : t < 2 * ff.degree - 1) : gf2 (gBits (some ff) t k) = blmVal (some ff) t k := by
  have hff : FFOK ff := Fact.out
  have h16 := hff.min.e16
  obtain ⟨h1, _⟩ := initPowGen_spec hff.min t (by omega)
  rw [gBits_eq t k h, ebit_apply, xi_pow_powGen t h, gf2_coeff, hff.pow, h1]
  rfl

theorem gBits_high (t k : Nat) (hk : ff.degree ≤ k) : gBits (some ff) t k = false := by
  show (if t < ff.degree then decide (k = t) else decide (k < ff.degree) && (ff.powGen t).getLsbD k) = _
  by_cases h : t < ff.degree
  · rw [if_pos h]; exact decide_eq_false (by omega)
  · rw [if_neg h, decide_eq_false (by omega)]; rfl

/-- an exact bilinear map multiplies sliced matrices -/
theorem ptrApplyBlm_spack {f : Blm} (hf : BlmExact ff.degree (blmVal (some ff)) ff.degree ff.degree f) (hd : DjbOk f) (C A B : Mat ff)
    (hr : C.nrows = A.nrows) (hc : C.ncols = B.ncols) (hC : f.djb ≠ none → ∀ i j, i < C.nrows → j < C.ncols → C.e i j = 0) :
    (ptrApplyBlm? f A.nrows A.ncols B.ncols C.spack.x A.spack.x B.spack.x).map (fun x => { C.spack with x := x }) = some (C.addMulM A B).spack := by
  obtain ⟨X', e, hX⟩ := ptrApplyBlm_zero hf.2.1 hf.2.2.1 hd A.nrows A.ncols B.ncols C.spack.x A.spack.x B.spack.x (by
    intro hn j r c _ hr' hc'
    rw [spack_bit, hC hn r c (by omega) (by omega)]
    exact (ebit (ff := ff) j).map_zero)
  rw [e, Option.map_some]
  refine congrArg some (addsProduct_spack C A B hr hc fun k i p => ?_)
  rw [hX]
  refine congrArg (bitAt (C.spack.x k) i p + ·) ?_
  rw [hf.1]
  by_cases hip : i < A.nrows ∧ p < B.ncols
  · rw [decide_eq_true hip]
    by_cases hk : k < ff.degree
    · rw [decide_eq_true ⟨hip.1, hip.2, hk⟩]
      refine congrArg (true * ·) ?_
      rw [blmBit_exact hf hk (V := gBits (some ff)) (fun a b ha hb => gBits_blmVal _ _ (by omega))]
    · rw [decide_eq_false (by tauto)]
      refine (zero_mul _).trans ((one_mul _).trans ?_).symm
      refine Finset.sum_eq_zero fun a _ => Finset.sum_eq_zero fun b _ => ?_
      rw [gBits_high _ _ (by omega)]; exact zero_mul _
  · rw [decide_eq_false hip, decide_eq_false (by tauto)]
    exact (zero_mul _).trans (zero_mul _).symm

theorem sliceMulBlmRaw_some (env : BlmEnv) (fuel : Nat) (C A B : Slice) (f : Blm) :
    mzdSliceMulBlmRaw? env fuel C A B (some f) =
      (ptrApplyBlm? f A.nrows A.ncols B.ncols C.x A.x B.x).map (fun x => { C with x := x }) := rfl

/-- `mzd_slice_mul_blm` with an exact map supplied by the caller -/
theorem sliceMulBlm_map (env : BlmEnv) (fuel : Nat) {f : Blm} (hx : BlmExact ff.degree (blmVal (some ff)) ff.degree ff.degree f) (hd : DjbOk f)
    (C A B : Mat ff) (hr : C.nrows = A.nrows) (hc : C.ncols = B.ncols) (hi : A.ncols = B.nrows) (hf : A.fid = B.fid) (hf' : C.fid = A.fid) :
    mzdSliceMulBlm? env fuel C.spack A.spack B.spack (some f) = some (C.mulM A B).spack := by
  unfold mzdSliceMulBlm?
  show (if A.ncols ≠ B.nrows ∨ A.fid ≠ B.fid then _ else if C.fid ≠ A.fid ∨ C.nrows ≠ A.nrows ∨ C.ncols ≠ B.ncols then _ else _) = _
  rw [if_neg (by tauto), if_neg (by tauto)]
  rw [show (0#64 : Word) = (0 : Elem ff).1 from rfl, sliceSetUi_spack, sliceMulBlmRaw_some]
  refine (ptrApplyBlm_spack hx hd (C.scalar 0) A B hr hc ?_).trans (by rw [scalar_addMulM])
  intro _ i j h1 h2
  show (if i < C.nrows ∧ j < C.ncols then (if i = j then 0 else 0) else C.e i j) = 0
  rw [if_pos ⟨h1, h2⟩]; simp

variable {env : BlmEnv} (henv : BlmEnvOk env)
include henv

/-- the map built by `_mzd_slice_mul_blm` -/
theorem blmInit_field {fuel : Nat} (hfuel : ff.degree * ff.degree ≤ fuel) :
    ∃ f, blmInitCrt? env fuel (some ff) ff.degree ff.degree (crtSingle ff.degree) true = some f ∧
      BlmExact ff.degree (blmVal (some ff)) ff.degree ff.degree f ∧ DjbOk f := by
  have hff : FFOK ff := Fact.out
  have h1 := hff.min.e1
  have h16 := hff.min.e16
  have hmin : ∀ g, some ff = some g → MinOK g.minpoly g.degree := by rintro g ⟨⟩; exact hff.min
  obtain ⟨f, e, h2, h3, _⟩ := blmInit_single henv h1 h16 hfuel hmin true
  exact ⟨f, e, h2, h3⟩

/-- `_mzd_slice_mul_blm` into a cleared matrix, with the default map -/
theorem sliceMulBlmRaw_spack {fuel : Nat} (hfuel : ff.degree * ff.degree ≤ fuel) (C A B : Mat ff)
    (hr : C.nrows = A.nrows) (hc : C.ncols = B.ncols) (hC : ∀ i j, i < C.nrows → j < C.ncols → C.e i j = 0) :
    mzdSliceMulBlmRaw? env fuel C.spack A.spack B.spack none = some (C.addMulM A B).spack := by
  obtain ⟨f, e, h1, h2⟩ := blmInit_field (ff := ff) henv hfuel
  have h16 : ff.degree ≤ 16 := (Fact.out : FFOK ff).min.e16
  unfold mzdSliceMulBlmRaw?
  show Option.bind (if ff.degree > 16 then none else _) _ = _
  rw [if_neg (by omega)]
  show Option.bind (blmInitCrt? env fuel (some ff) ff.degree ff.degree (crtSingle ff.degree) true) _ = _
  rw [e, Option.bind_some]
  exact ptrApplyBlm_spack h1 h2 C A B hr hc fun _ => hC

theorem sliceMulBlm_spack {fuel : Nat} (hfuel : ff.degree * ff.degree ≤ fuel) (C A B : Mat ff)
    (hr : C.nrows = A.nrows) (hc : C.ncols = B.ncols) (hi : A.ncols = B.nrows) (hf : A.fid = B.fid) (hf' : C.fid = A.fid) :
    mzdSliceMulBlm? env fuel C.spack A.spack B.spack none = some (C.mulM A B).spack := by
  unfold mzdSliceMulBlm?
  show (if A.ncols ≠ B.nrows ∨ A.fid ≠ B.fid then _ else if C.fid ≠ A.fid ∨ C.nrows ≠ A.nrows ∨ C.ncols ≠ B.ncols then _ else _) = _
  rw [if_neg (by tauto), if_neg (by tauto)]
  rw [show (0#64 : Word) = (0 : Elem ff).1 from rfl, sliceSetUi_spack, sliceMulBlmRaw_spack henv hfuel (C.scalar 0) A B hr hc, scalar_addMulM]
  intro i j h1 h2
  show (if i < C.nrows ∧ j < C.ncols then (if i = j then 0 else 0) else C.e i j) = 0
  rw [if_pos ⟨h1, h2⟩]; simp

theorem sliceAddmulBlm_spack {fuel : Nat} (hfuel : ff.degree * ff.degree ≤ fuel) (C A B : Mat ff)
    (hr : C.nrows = A.nrows) (hc : C.ncols = B.ncols) (hi : A.ncols = B.nrows) (hf : A.fid = B.fid) (hf' : C.fid = A.fid) :
    mzdSliceAddmulBlm? env fuel C.spack A.spack B.spack none = some (C.addMulM A B).spack := by
  unfold mzdSliceAddmulBlm?
  show (if A.ncols ≠ B.nrows ∨ A.fid ≠ B.fid then _ else if C.fid ≠ A.fid ∨ C.nrows ≠ A.nrows ∨ C.ncols ≠ B.ncols then _ else
    (mzdSliceMulBlmRaw? env fuel (mzdSliceInit ff A.fid A.nrows B.ncols) _ _ none).bind _) = _
  rw [if_neg (by tauto), if_neg (by tauto), sliceInit_spack, sliceMulBlmRaw_spack henv hfuel (⟨A.nrows, B.ncols, A.fid, fun _ _ => 0⟩ : Mat ff) A B rfl rfl (fun _ _ _ _ => rfl), Option.bind_some]
  rw [sliceAdd_spack C C ((⟨A.nrows, B.ncols, A.fid, fun _ _ => 0⟩ : Mat ff).addMulM A B) hf' hr hc rfl rfl rfl]
  refine congrArg (fun X : Mat ff => some X.spack) (Mat.ext rfl rfl rfl ?_)
  funext i j
  show (if i < C.nrows ∧ j < C.ncols then C.e i j + (if i < A.nrows ∧ j < B.ncols then 0 + ∑ k ∈ Finset.range A.ncols, A.e i k * B.e k j else 0)
    else C.e i j) = (if i < C.nrows ∧ j < C.ncols then C.e i j + ∑ k ∈ Finset.range A.ncols, A.e i k * B.e k j else C.e i j)
  by_cases h : i < C.nrows ∧ j < C.ncols
  · rw [if_pos h, if_pos h, if_pos (by omega), zero_add]
  · rw [if_neg h, if_neg h]

theorem addmulBlmRaw_pack {fuel : Nat} (hfuel : ff.degree * ff.degree ≤ fuel) (C A B : Mat ff)
    (hr : C.nrows = A.nrows) (hc : C.ncols = B.ncols) (hi : A.ncols = B.nrows) (hf' : C.fid = A.fid) :
    mzedAddmulBlmRaw? env fuel C.pack A.pack B.pack = some (C.addMulM A B).pack := by
  unfold mzedAddmulBlmRaw?
  rw [sliceNew_spack, Option.bind_some, sliceNew_spack, Option.bind_some]
  show (mzdSliceMulBlmRaw? env fuel (mzdSliceInit ff A.fid A.nrows B.ncols) A.trim.spack B.trim.spack none).bind _ = _
  rw [sliceInit_spack, sliceMulBlmRaw_spack henv hfuel (⟨A.nrows, B.ncols, A.fid, fun _ _ => 0⟩ : Mat ff) A.trim B.trim rfl rfl (fun _ _ _ _ => rfl), Option.bind_some, clingNew_pack, Option.bind_some]
  rw [addM_pack C C ((⟨A.nrows, B.ncols, A.fid, fun _ _ => 0⟩ : Mat ff).addMulM A.trim B.trim).trim hr.symm hc.symm hf'.symm rfl rfl rfl]
  refine congrArg (fun X : Mat ff => some X.pack) (Mat.ext rfl rfl rfl ?_)
  funext i j
  show (if i < C.nrows ∧ j < C.ncols then C.e i j + (if i < A.nrows ∧ j < B.ncols then (if i < A.nrows ∧ j < B.ncols then
      0 + ∑ k ∈ Finset.range A.ncols, (if i < A.nrows ∧ k < A.ncols then A.e i k else 0) * (if k < B.nrows ∧ j < B.ncols then B.e k j else 0) else 0) else 0)
    else C.e i j) = (if i < C.nrows ∧ j < C.ncols then C.e i j + ∑ k ∈ Finset.range A.ncols, A.e i k * B.e k j else C.e i j)
  by_cases h : i < C.nrows ∧ j < C.ncols
  · rw [if_pos h, if_pos h, if_pos (by omega), if_pos (by omega), zero_add]
    refine congrArg (C.e i j + ·) (Finset.sum_congr rfl fun k hk => ?_)
    rw [Finset.mem_range] at hk
    rw [if_pos ⟨by omega, hk⟩, if_pos ⟨by omega, by omega⟩]
  · rw [if_neg h, if_neg h]

end

end M4rie
