import Verif.Proofs.CostPoly
import Verif.Props.Cost
import Verif.Props.MzdPoly

/-!
# C75: what a multiplication through a bilinear map, or of polynomials, costs
-/

namespace M4rie.Props
open M4rie M4rie.Spec Finset

theorem crtCost_documented {d : Nat} (h : d ≤ 16) : crtCost d = documentedProducts d := by
  interval_cases d <;> decide

theorem blmCost_documented {p : Nat → Nat} (h : p 0 ≤ 16) : blmCostCrt p = schemeProducts p := by
  unfold blmCostCrt schemeProducts
  rw [crtCost_documented h]
  have : ∀ n, n ≤ 16 → ∀ c, forN (fun d c => c + crtCost (d + 1) * p (d + 1)) n c = c + ∑ d ∈ range n, documentedProducts (d + 1) * p (d + 1) := by
    intro n
    induction n with
    | zero => intro _ c; simp [forN]
    | succ n ih =>
      intro hn c
      rw [sum_range_succ, ← Nat.add_assoc, ← ih (by omega) c, ← crtCost_documented hn]
      rfl
  exact this 16 le_rfl _

/-! ### Multiplication over GF(2^e) -/

section
variable {ff : Gf2e} [IsField ff] {env : BlmEnv} (henv : BlmEnvOk env)
include henv

theorem usesMap_none {fuel : Nat} (hfuel : ff.degree * ff.degree ≤ fuel) : UsesMap env fuel ff none (documentedProducts ff.degree) := by
  intro g hg
  have h2 := IsField.two_le (ff := ff)
  have h16 := (Fact.out : FFOK ff).min.e16
  obtain ⟨f, e, -, -, hf⟩ := blmInit_single henv (by omega) h16 hfuel (ff := some ff) (by rintro g ⟨⟩; exact (Fact.out : FFOK ff).min) true
  rw [e] at hg
  cases hg
  rw [hf, crtCost_documented h16]

section
variable {A B C : Slice} {MA MB MC : Nat → Nat → Elem ff} (hA : SRep A MA) (hB : SRep B MB) (hC : SRep C MC) (h : SFits C A B)
include hA hB hC h

/-- **C75** `mzd_slice_mul_blm(C,A,B,NULL)` and `mzd_slice_addmul_blm(C,A,B,NULL)` take as many products over GF(2) as Karatsuba's formulas. -/
theorem C75_slice_blm {fuel : Nat} (hfuel : ff.degree * ff.degree ≤ fuel) :
    (∃ R, mzdSliceMulBlmL env fuel C A B none [] = some (R, List.replicate (documentedProducts ff.degree) (.gf2 A.nrows A.ncols B.ncols)) ∧
      SHoldsProduct R C A.ncols MC MA MB) ∧
    (∃ R, mzdSliceAddmulBlmL env fuel C A B none [] = some (R, List.replicate (documentedProducts ff.degree) (.gf2 A.nrows A.ncols B.ncols)) ∧
      SHoldsSumProduct R C A.ncols MC MA MB) := by
  have hm := usesMap_none (ff := ff) henv hfuel
  constructor
  · obtain ⟨R, e, hR⟩ := C54_slice_mul henv hfuel hA hB hC h
    exact ⟨R, by rw [sliceMulBlm_logs C A B (by rw [hC.ffEq]; exact hm) [], e]; rfl, hR⟩
  · obtain ⟨R, e, hR⟩ := C54_slice_addmul henv hfuel hA hB hC h
    exact ⟨R, by rw [sliceAddmulBlm_logs C A B (by rw [hA.ffEq]; exact hm) [], e]; rfl, hR⟩

/-- **C75** with a map `f` made by `blm_init_crt` for the scheme `p` they take exactly the number of products documented for that scheme. -/
theorem C75_slice_blm_map {fuel fuel' : Nat} {p : Nat → Nat} (htab : ∀ d, 1 ≤ d → d ≤ 16 → p d ≤ (irredTable d).length)
    (hdeg : 2 * ff.degree - 1 ≤ p 0 + ∑ d ∈ range 16, (d + 1) * p (d + 1)) {djb : Bool} {f : Blm}
    (hf : blmInitCrt? env fuel (some ff) ff.degree ff.degree p djb = some f) :
    (∃ R, mzdSliceMulBlmL env fuel' C A B (some f) [] = some (R, List.replicate (schemeProducts p) (.gf2 A.nrows A.ncols B.ncols)) ∧
      SHoldsProduct R C A.ncols MC MA MB) ∧
    (∃ R, mzdSliceAddmulBlmL env fuel' C A B (some f) [] = some (R, List.replicate (schemeProducts p) (.gf2 A.nrows A.ncols B.ncols)) ∧
      SHoldsSumProduct R C A.ncols MC MA MB) := by
  obtain ⟨h1, h2, h3⟩ := blmInit_inf hf
  have hs : SchemeOk ff.degree ff.degree p := ⟨h1, h2, h3, fun d hd1 hd2 => by rw [← (C09_nodup_count d).2]; exact htab d hd1 hd2⟩
  have h16 := (Fact.out : FFOK ff).min.e16
  obtain ⟨-, -, x⟩ := blmInit_exact henv hs (by
    have : 2 * ff.degree - 1 ≤ schemeDegree p := hdeg
    omega) (ff := some ff) (by rintro g ⟨⟩; exact (Fact.out : FFOK ff).min) hf
  have hm : f.F.nrows = schemeProducts p := by rw [x, blmCost_documented h1]
  have l1 := sliceMulBlm_logs (env := env) (fuel := fuel') C A B (show UsesMap env fuel' C.ff (some f) (schemeProducts p) from hm)
  have l2 := sliceAddmulBlm_logs (env := env) (fuel := fuel') C A B (show UsesMap env fuel' A.ff (some f) (schemeProducts p) from hm)
  constructor
  · obtain ⟨R, e, hR⟩ := C54_slice_mul_map (fuel' := fuel') henv htab hdeg hf hA hB hC h
    exact ⟨R, by rw [l1 [], e, Option.map_some, List.nil_append], hR⟩
  · obtain ⟨R, e, hR⟩ := C54_slice_addmul_map (fuel' := fuel') henv htab hdeg hf hA hB hC h
    exact ⟨R, by rw [l2 [], e, Option.map_some, List.nil_append], hR⟩

end

section
variable {A B C : Mzed} {MA MB MC : Nat → Nat → Elem ff} (hA : Rep A MA) (hB : Rep B MB) (hC : Rep C MC) (hfit : Fits C A B)

theorem addmulBlmRaw_logs (hA : Rep A MA) (hB : Rep B MB) {fuel : Nat} (hfuel : ff.degree * ff.degree ≤ fuel) (C : Mzed) :
    Logs (mzedAddmulBlmRawL env fuel C A B) (mzedAddmulBlmRaw? env fuel C A B)
      (List.replicate (documentedProducts ff.degree) (.gf2 A.nrows A.ncols B.ncols)) := by
  have eA := sliceNew_spack (⟨A.nrows, A.ncols, A.fid, MA⟩ : Mat ff)
  have eB := sliceNew_spack (⟨B.nrows, B.ncols, B.fid, MB⟩ : Mat ff)
  rw [← hA.eq_pack'] at eA
  rw [← hB.eq_pack'] at eB
  refine Logs.congr (logs_bind (logs_quietly _) fun As hAs => logs_bind (logs_quietly _) fun Bs hBs => ?_) (by rw [List.nil_append, List.nil_append])
  rw [eA] at hAs
  rw [eB] at hBs
  cases hAs
  cases hBs
  exact Logs.congr (logs_bind (sliceMulBlmRaw_logs (mzdSliceInit ff A.fid A.nrows B.ncols) _ _ (usesMap_none (ff := ff) henv hfuel)) fun Ts _ =>
    logs_bind (logs_quietly _) fun T _ => logs_quietly _) (List.append_nil _)

include hA hB hC hfit

/-- **C75** the same for the packed matrices of `mzed_mul_blm(C,A,B)` and `mzed_addmul_blm(C,A,B)`. -/
theorem C75_blm {fuel : Nat} (hfuel : ff.degree * ff.degree ≤ fuel) :
    (∃ R, mzedMulBlmL env fuel C A B [] = some (R, List.replicate (documentedProducts ff.degree) (.gf2 A.nrows A.ncols B.ncols)) ∧
      HoldsProduct R C A.ncols MC MA MB) ∧
    (∃ R, mzedAddmulBlmL env fuel C A B [] = some (R, List.replicate (documentedProducts ff.degree) (.gf2 A.nrows A.ncols B.ncols)) ∧
      HoldsSumProduct R C A.ncols MC MA MB) := by
  obtain ⟨⟨R, e, hR⟩, ⟨R', e', hR'⟩⟩ := C54_mul henv hfuel hA hB hC hfit
  have c1 : ¬ (A.ncols ≠ B.nrows ∨ A.fid ≠ B.fid) := fun x => x.elim (· hfit.inner) (· hfit.field)
  have c2 : ¬ (C.fid ≠ A.fid ∨ C.nrows ≠ A.nrows ∨ C.ncols ≠ B.ncols) := fun x => x.elim (· hfit.fieldC) (·.elim (· hfit.rows) (· hfit.cols))
  unfold mzedMulBlm? at e
  unfold mzedAddmulBlm? at e'
  rw [if_neg c1, if_neg c2] at e e'
  refine ⟨⟨R, ?_, hR⟩, ⟨R', ?_, hR'⟩⟩
  · unfold mzedMulBlmL
    rw [if_neg c1, if_neg c2, addmulBlmRaw_logs henv hA hB hfuel _ [], e]
    rfl
  · unfold mzedAddmulBlmL
    rw [if_neg c1, if_neg c2, addmulBlmRaw_logs henv hA hB hfuel _ [], e']
    rfl

end

end

/-! ### Polynomials -/

section
variable {C A B : MzdPoly} (hf : PolyFits C A B) (hd : A.depth + B.depth - 1 ≤ C.depth)
include hf hd

/-- **C75** `_mzd_poly_addmul_naive(C,A,B)` takes one product for each pair of coefficients, ... -/
theorem C75_poly_naive : ∃ R, mzdPolyAddmulNaiveL C A B [] = some (R, List.replicate (A.depth * B.depth) (.gf2 A.nrows A.ncols B.ncols)) ∧
    HoldsPolySum R C A B := by
  obtain ⟨R, e, hR⟩ := C39_naive hf hd
  exact ⟨R, by rw [polyNaive_logs C A B [], e]; rfl, hR⟩

/-- **C75** ... `_mzd_poly_addmul_karatsubs_balanced(C,A,B)` the documented number for `d` coefficients, fewer as soon as `d ≥ 2`, ... -/
theorem C75_poly_karatsuba (h1 : 1 ≤ A.depth) (h16 : A.depth ≤ 16) (he : A.depth = B.depth) :
    ∃ R, mzdPolyAddmulKaraL C A B [] = some (R, List.replicate (documentedProducts A.depth) (.gf2 A.nrows A.ncols B.ncols)) ∧ HoldsPolySum R C A B ∧
      (2 ≤ A.depth → documentedProducts A.depth < A.depth * B.depth) := by
  obtain ⟨R, e, hR⟩ := C39_karatsuba hf hd h1 h16 he
  refine ⟨R, by rw [polyKara_logs C A B [], e]; rfl, hR, ?_⟩
  rw [← he]
  generalize A.depth = d at *
  intro h2
  interval_cases d <;> decide

/-- **C75** ... `_mzd_poly_addmul_blm(C,A,B,f)` one for each row of the map, ... -/
theorem C75_poly_blm {f : Blm} (hx : PolyExact A.depth B.depth f) (hn : f.djb = none) :
    ∃ R, mzdPolyAddmulBlmL C A B f [] = some (R, List.replicate f.F.nrows (.gf2 A.nrows A.ncols B.ncols)) ∧ HoldsPolySum R C A B := by
  obtain ⟨R, e, hR⟩ := C55_blm hf hd hx hn
  exact ⟨R, by rw [polyBlm_logs C A B f [], e]; rfl, hR⟩

/-- **C75** ... and `_mzd_poly_addmul_crt(C,A,B)` the products documented for the scheme `crt_init` chooses, fewer than `_mzd_poly_addmul_naive`.
(It returns the product, not the sum: C55.) -/
theorem C75_poly_crt {env : BlmEnv} (henv : BlmEnvOk env) {fuel : Nat} (h1 : 1 ≤ A.depth) (h2 : 1 ≤ B.depth) {p : Nat → Nat}
    (hp : crtInit? A.depth B.depth = some p) {k : Nat} (hk : p k ≠ 0) {R : Option MzdPoly} {l : List Product}
    (h : mzdPolyAddmulCrtL env fuel (some C) A B [] = some (R, l)) :
    l = List.replicate (schemeProducts p) (.gf2 A.nrows A.ncols B.ncols) ∧ (∃ R', R = some R' ∧ HoldsPolyProduct R' C A B) ∧
      schemeProducts p < A.depth * B.depth := by
  have hc : ∀ q f, crtInit? A.depth B.depth = some q → blmInitCrt? env fuel none A.depth B.depth q true = some f → f.F.nrows = schemeProducts p := by
    intro q f hq hb
    rw [hp] at hq
    cases hq
    rcases crtInit_spec hp with h | h
    · exact absurd (by rw [h]) hk
    · rw [← blmCost_documented (blmInit_inf hb).1]
      exact (C40_exact henv (fun d h1 h2 => by rw [(C09_nodup_count d).2]; exact h.tab d h1 h2) (by
        have := h.deg
        show _ ≤ schemeDegree p
        omega) hb).2
  rw [polyCrt_logs (some C) A B hc []] at h
  obtain ⟨R', hR, e⟩ := Option.map_eq_some_iff.1 h
  rw [List.nil_append] at e
  cases e
  refine ⟨rfl, C55_crt hf hd henv h1 h2 hp hk hR, ?_⟩
  unfold mzdPolyAddmulCrt? at hR
  rw [hp, Option.bind_some] at hR
  obtain ⟨f, hb, -⟩ := Option.bind_eq_some_iff.1 hR
  rw [← hc p f hp hb]
  exact (C40_crt_exact henv hp hk hb).2

end

/-- **C75** `_mzd_poly_addmul_ext1(C,A,B)`, for a product with `d` coefficients (`3 ≤ d ≤ 65536`): two products over GF(2), and the documented number for the field with
`2^⌈log2 d⌉` elements for each of the other `d - 2` points of evaluation. -/
theorem C75_poly_ext1 {cb : Codebook} (optK : Nat) (small : Bool) (fid : Nat) {C A B : MzdPoly} (hf : PolyFits C A B)
    (hd : A.depth + B.depth - 1 ≤ C.depth) (h1 : 1 ≤ A.depth) (h2 : 1 ≤ B.depth) (h3 : 3 ≤ A.depth + B.depth - 1) (h16 : A.depth + B.depth - 1 ≤ 65536)
    (hcb : cb.Ok (Nat.clog 2 (A.depth + B.depth - 1))) :
    ∃ R, mzdPolyAddmulExt1L cb optK small fid C A B [] = some (R, List.replicate
        (2 + (A.depth + B.depth - 1 - 2) * documentedProducts (Nat.clog 2 (A.depth + B.depth - 1))) (.gf2 A.nrows A.ncols B.ncols)) ∧
      HoldsPolySum R C A B := by
  obtain ⟨R, e, hR⟩ := C55_ext1 optK small fid hf hd h1 h2 h3 h16 hcb
  refine ⟨R, ?_, hR⟩
  obtain ⟨c1, c2, c3⟩ := clog_facts h3 h16
  have hl : Logs (mzdPolyAddmulExt1L cb optK small fid C A B) (mzdPolyAddmulExt1? cb optK small fid C A B) (List.replicate
        (2 + (A.depth + B.depth - 1 - 2) * documentedProducts (Nat.clog 2 (A.depth + B.depth - 1))) (.gf2 A.nrows A.ncols B.ncols)) := by
    unfold mzdPolyAddmulExt1L mzdPolyAddmulExt1?
    have n0 : ¬ (A.depth = 0 ∨ B.depth = 0) := by omega
    have n16 : ¬ 16 < Nat.clog 2 (A.depth + B.depth - 1) := by omega
    dsimp only
    rw [if_neg n0, if_neg n0, if_neg (not_not.2 ⟨hf, hd⟩), if_neg (not_not.2 ⟨hf, hd⟩), if_neg n16, if_neg n16]
    refine Logs.congr (logs_bind (logs_quietly _) fun n hn => logs_bind (logs_quietly _) fun ff hff => ?_) (by rw [List.nil_append, List.nil_append])
    have hmem : n ∈ irredTable (Nat.clog 2 (A.depth + B.depth - 1)) := List.mem_of_getElem? hn
    obtain ⟨ff', e1, e2, -⟩ := C09_init_field _ n hmem (by omega) c2
    rw [e1] at hff
    cases hff
    by_cases hw : (degreeToW? ff.degree).isNone = true
    · rw [if_pos hw, if_pos hw]; exact logs_none _
    · rw [if_neg hw, if_neg hw, ← e2]
      exact ext1Body_logs cb optK small (by omega) (by omega) fid C A B _
  rw [hl [], e, Option.map_some, List.nil_append]

/-! ### Cases that meet the hypotheses -/

-- `1 + x` times itself: the scheme of `crt_init` (the points 0, 1 and infinity: Karatsuba) takes 3 products, and the call returns
example : ∃ (p : Nat → Nat) (R : Option MzdPoly), PolyFits constOne onePlusX onePlusX ∧ onePlusX.depth + onePlusX.depth - 1 ≤ constOne.depth ∧
    1 ≤ onePlusX.depth ∧ crtInit? onePlusX.depth onePlusX.depth = some p ∧ p 1 ≠ 0 ∧ schemeProducts p = 3 ∧
    mzdPolyAddmulCrtL stdBlmEnv 4 (some constOne) onePlusX onePlusX [] = some (R, List.replicate 3 (.gf2 1 1 1)) := by
  obtain ⟨p, f, e1, q0, q1, e2, hx, hn⟩ := C40_instance
  obtain ⟨R, eR, -⟩ := C55_violation_crt
  have hval : (crtInit? 2 2).map (fun p => blmCostCrt p) = some 3 := by decide +kernel
  rw [e1, Option.map_some, Option.some.injEq] at hval
  refine ⟨p, some R, ⟨rfl, rfl, rfl⟩, by decide, by decide, e1, by omega, by rw [← blmCost_documented (by omega), hval], ?_⟩
  have hl := polyCrt_logs (env := stdBlmEnv) (fuel := 4) (some constOne) onePlusX onePlusX (N := 3) (fun q g hq hg => by
    have hq' : crtInit? 2 2 = some q := hq
    rw [e1] at hq'
    cases hq'
    have hg' : blmInitCrt? stdBlmEnv 4 none 2 2 p true = some g := hg
    rw [e2] at hg'
    cases hg'
    exact hn) []
  rw [hl, eR]
  rfl

-- polynomials of depth 5 and 4: 8 points of GF(8), 2 + 6 * 6 products
example : ∃ C A B : MzdPoly, PolyFits C A B ∧ A.depth + B.depth - 1 ≤ C.depth ∧ 3 ≤ A.depth + B.depth - 1 ∧ grayCode.Ok (Nat.clog 2 (A.depth + B.depth - 1)) ∧
    2 + (A.depth + B.depth - 1 - 2) * documentedProducts (Nat.clog 2 (A.depth + B.depth - 1)) = 38 ∧ bitAt (A.x 4) 2 1 = true :=
  ⟨⟨3, 5, 8, 8, fun _ _ _ => 2#64⟩, ⟨3, 2, 5, 5, fun _ _ _ => 3#64⟩, ⟨2, 5, 4, 4, fun _ _ _ => 1#64⟩, ⟨rfl, rfl, rfl⟩, by decide, by decide, grayCode_ok _, by
    have : Nat.clog 2 8 = 3 := by decide
    show 2 + (8 - 2) * documentedProducts (Nat.clog 2 8) = 38
    rw [this]
    rfl, by decide⟩

-- 70x65 times 65x3 over GF(2^8): 27 products through the default map
example : ∃ ff, ∃ _ : IsField ff, BlmEnvOk stdBlmEnv ∧ ff.degree * ff.degree ≤ 64 ∧ documentedProducts ff.degree = 27 ∧
    ∃ (A B C : Mzed) (MA MB MC : Nat → Nat → Elem ff), Rep A MA ∧ Rep B MB ∧ Rep C MC ∧ Fits C A B ∧ A.nrows = 70 ∧ A.ncols = 65 ∧ MA 3 4 = 1 ∧
    MC 5 5 = 1 := by
  obtain ⟨ff, h, hd⟩ := exists_aes
  refine ⟨ff, h, stdBlmEnv_ok, by rw [hd], by rw [hd]; rfl, Mat.pack (ff := ff) ⟨70, 65, 0, fun _ _ => 1⟩,
    Mat.pack (ff := ff) ⟨65, 3, 0, fun i j => if i = j then 1 else 0⟩, Mat.pack (ff := ff) ⟨70, 3, 0, fun i _ => if i = 5 then 1 else 0⟩, _, _, _,
    pack_rep _, pack_rep _, pack_rep _, ?_, ?_, ?_, ?_, ?_⟩
  · constructor <;> simp only [pack_nrows, pack_ncols, pack_fid]
  all_goals simp [pack_nrows, pack_ncols]

end M4rie.Props
