import Verif.Proofs.PolyExtMain
import Verif.Props.Blm

/-!
# Properties C39, C55, C56: matrices over GF(2)[x]

`polyMat m n P` (Spec/PolyMat) is the matrix of polynomials stored in `P`; `HoldsPolySum R C A B`: `R = C + A*B`, and no bit outside
the first `A->depth + B->depth - 1` coefficient matrices has changed.
-/

namespace M4rie.Props
open M4rie M4rie.Spec Polynomial

/-! ### C39: naive and Karatsuba multiplication -/

section
variable {C A B : MzdPoly} (hf : PolyFits C A B) (hd : A.depth + B.depth - 1 ≤ C.depth)
include hf hd

/-- **C39** `_mzd_poly_addmul_naive(C,A,B)` gives `C + A*B`. -/
theorem C39_naive : ∃ R, mzdPolyAddmulNaive? C A B = some R ∧ HoldsPolySum R C A B := polyNaive_spec hf hd

/-- **C39** `_mzd_poly_addmul_karatsubs_balanced(C,A,B)` gives `C + A*B` for operands with the same number `1 ≤ d ≤ 16` of
coefficients. -/
theorem C39_karatsuba (h1 : 1 ≤ A.depth) (h16 : A.depth ≤ 16) (he : A.depth = B.depth) :
    ∃ R, mzdPolyAddmulKara? C A B = some R ∧ HoldsPolySum R C A B := polyKara_spec hf h1 h16 he hd

end

/-- the zero polynomial -/
theorem polyMat_init (d m n m' n' : Nat) : polyMat m' n' (mzdPolyInit d m n) = 0 := by
  ext i j t
  rw [polyMat_coeff]
  show (if t < d + 1 then gf2 (bitAt zeroW i j) else 0) = (0 : (ZMod 2)[X]).coeff t
  rw [coeff_zero]
  have : gf2 (bitAt zeroW i j) = 0 := by
    have : bitAt zeroW i j = false := by simp [bitAt, zeroW]
    rw [this]; rfl
  rw [this, ite_self]

/-- **C39** with `C == NULL` the product itself is returned, in a new polynomial with `A->depth + B->depth` coefficients. -/
theorem C39_naive_new {A B : MzdPoly} (h : A.ncols = B.nrows) (h1 : 1 ≤ A.depth + B.depth) : ∃ R, mzdPolyAddmulNaiveNew? A B = some R ∧
    R.nrows = A.nrows ∧ R.ncols = B.ncols ∧ R.depth = A.depth + B.depth ∧
    polyMat A.nrows B.ncols R = polyMat A.nrows A.ncols A * polyMat A.ncols B.ncols B := by
  obtain ⟨R, e, hR⟩ := C39_naive (C := mzdPolyInit (A.depth + B.depth - 1) A.nrows B.ncols) (A := A) (B := B) ⟨h, rfl, rfl⟩ (by
    show _ ≤ A.depth + B.depth - 1 + 1
    omega)
  refine ⟨R, e, hR.same.nrows, hR.same.ncols, ?_, by rw [hR.value, polyMat_init, zero_add]⟩
  rw [hR.same.depth]
  show A.depth + B.depth - 1 + 1 = _
  omega

theorem C39_karatsuba_new {A B : MzdPoly} (h : A.ncols = B.nrows) (h1 : 1 ≤ A.depth) (h16 : A.depth ≤ 16) (he : A.depth = B.depth) :
    ∃ R, mzdPolyAddmulKaraNew? A B = some R ∧ R.nrows = A.nrows ∧ R.ncols = B.ncols ∧ R.depth = A.depth + B.depth ∧
    polyMat A.nrows B.ncols R = polyMat A.nrows A.ncols A * polyMat A.ncols B.ncols B := by
  obtain ⟨R, e, hR⟩ := C39_karatsuba (C := mzdPolyInit (A.depth + B.depth - 1) A.nrows B.ncols) (A := A) (B := B) ⟨h, rfl, rfl⟩ (by
    show _ ≤ A.depth + B.depth - 1 + 1
    omega) h1 h16 he
  refine ⟨R, e, hR.same.nrows, hR.same.ncols, ?_, by rw [hR.value, polyMat_init, zero_add]⟩
  rw [hR.same.depth]
  show A.depth + B.depth - 1 + 1 = _
  omega

/-- **C39** outside its domain Karatsuba multiplication has no result: different depths, depth 0, depth above 16 (`m4ri_die`), a target
with fewer than `2 d - 1` coefficients or matrices that do not fit (undefined behaviour in the source). -/
theorem C39_karatsuba_dies {C A B : MzdPoly} (h : A.depth ≠ B.depth ∨ A.depth = 0 ∨ 16 < A.depth ∨ ¬ PolyFits C A B ∨
    C.depth + 1 < A.depth + B.depth) : mzdPolyAddmulKara? C A B = none := by
  unfold mzdPolyAddmulKara?
  by_cases h1 : A.depth ≠ B.depth
  · exact if_pos h1
  · rw [if_neg h1]
    by_cases h2 : A.depth = 0 ∨ 16 < A.depth
    · exact if_pos h2
    · rw [if_neg h2]
      refine if_pos fun h3 => ?_
      have h4 := h3.1
      have h5 := h3.2
      rcases h with h | h | h | h | h
      · exact h1 h
      · exact h2 (Or.inl h)
      · exact h2 (Or.inr h)
      · exact h h4
      · omega

/-! ### C55: multiplication with bilinear maps, CRT, evaluation/interpolation -/

section
variable {C A B : MzdPoly} (hf : PolyFits C A B) (hd : A.depth + B.depth - 1 ≤ C.depth)
include hf hd

/-- **C55** `_mzd_poly_addmul_blm(C,A,B,f)` with an exact map `f` that has not been compiled gives `C + A*B`. -/
theorem C55_blm {f : Blm} (hx : PolyExact A.depth B.depth f) (hn : f.djb = none) :
    ∃ R, mzdPolyAddmulBlm? C A B f = some R ∧ HoldsPolySum R C A B :=
  polyBlm_spec hf hx (fun pf pg ph h => by rw [hn] at h; cases h) hd fun h => absurd hn h

/-- **C55** (with a compiled map) the product *replaces* the coefficients of `C`. -/
theorem C55_blm_compiled {f : Blm} (hx : PolyExact A.depth B.depth f) {pf pg ph : List DjbOp} (hp : Compiled f pf pg ph)
    (hc : f.djb = some (pf, pg, ph)) (h1 : 1 ≤ A.depth) (h2 : 1 ≤ B.depth) :
    ∃ R, mzdPolyAddmulBlm? C A B f = some R ∧ HoldsPolyProduct R C A B := by
  obtain ⟨X', e, hX⟩ := polyBlm_overwrites hf hx (by
    intro a b c h
    rw [hc] at h
    cases h
    exact hp) (by rw [hc]; exact fun h => by cases h) hd h1 h2
  refine ⟨_, e, ⟨rfl, rfl, rfl, rfl⟩, fun i j t ht => ?_, fun t i j h => ?_⟩
  · rw [polyMat_coeff, polyMat_mul_coeff]
    show (if t < C.depth then gf2 (bitAt (X' t) i j) else 0) = _
    rw [if_pos (by omega), hX, if_pos ⟨i.2, j.2, ht⟩]
  · show bitAt (X' t) i j = _
    rw [hX, if_neg (by tauto)]

variable {env : BlmEnv} (henv : BlmEnvOk env)
include henv

/-- **C55** `_mzd_poly_addmul_crt(C,A,B)`, whenever it returns: unless `crt_init` returned the all-zero scheme, the product *replaces*
the coefficients of `C` (although documented as `C += A*B`). -/
theorem C55_crt {fuel : Nat} (h1 : 1 ≤ A.depth) (h2 : 1 ≤ B.depth) {p : Nat → Nat} (hp : crtInit? A.depth B.depth = some p) {k : Nat}
    (hk : p k ≠ 0) {R : Option MzdPoly} (h : mzdPolyAddmulCrt? env fuel (some C) A B = some R) : ∃ R', R = some R' ∧ HoldsPolyProduct R' C A B := by
  unfold mzdPolyAddmulCrt? at h
  rw [hp, Option.bind_some] at h
  cases hb : blmInitCrt? env fuel none A.depth B.depth p true with
  | none => rw [hb] at h; cases h
  | some f =>
    rw [hb, Option.bind_some] at h
    have hx := (C40_crt_exact henv hp hk hb).1
    obtain ⟨s1, s2, s3⟩ := blmInit_inf hb
    rcases crtInit_spec hp with h0 | hg
    · rw [h0] at hk; exact absurd rfl hk
    · obtain ⟨_, hdj, _⟩ := blmInit_exact henv ⟨s1, s2, s3, hg.tab⟩ hg.deg (ff := none) (fun f hf => by cases hf) hb
      have hne : f.djb ≠ none := by
        obtain ⟨s, es, _⟩ := blmMaps_spec (fn := A.depth) (gn := B.depth) (p := p) ⟨s1, s2, s3, hg.tab⟩
        rw [blmInit_eq es] at hb
        obtain ⟨H, _, hH⟩ := Option.map_eq_some_iff.1 hb
        rw [← hH]
        exact fun h => by cases h
      obtain ⟨⟨pf, pg, ph⟩, hc⟩ := Option.ne_none_iff_exists'.1 hne
      obtain ⟨R', e, hR'⟩ := C55_blm_compiled hf hd hx (hdj _ _ _ hc) hc h1 h2
      have h' : (mzdPolyAddmulBlm? C A B f).map some = some R := h
      rw [e] at h'
      cases h'
      exact ⟨R', rfl, hR'⟩

/-- **C55** so `_mzd_poly_addmul_crt` gives `C + A*B` if these coefficients of `C` are zero. -/
theorem C55_crt_zero {fuel : Nat} (h1 : 1 ≤ A.depth) (h2 : 1 ≤ B.depth) {p : Nat → Nat} (hp : crtInit? A.depth B.depth = some p) {k : Nat}
    (hk : p k ≠ 0) {R : Option MzdPoly} (h : mzdPolyAddmulCrt? env fuel (some C) A B = some R)
    (hz : ∀ t, t < A.depth + B.depth - 1 → gf2Mat A.nrows B.ncols (C.x t) = 0) : ∃ R', R = some R' ∧ HoldsPolySum R' C A B := by
  obtain ⟨R', e, hR⟩ := C55_crt hf hd henv h1 h2 hp hk h
  refine ⟨R', e, hR.same, ?_, hR.frame⟩
  ext i j t
  rw [Matrix.add_apply, coeff_add]
  by_cases ht : t < A.depth + B.depth - 1
  · rw [hR.value i j t ht, polyMat_coeff]
    have : gf2Entry (C.x t) i j = 0 := congrFun (congrFun (hz t ht) i) j
    rw [this, ite_self, zero_add]
  · rw [polyMat_coeff, polyMat_coeff, polyMat_mul_coeff, pconv_high _ _ (by omega), hR.same.depth]
    show (if t < C.depth then gf2 (bitAt (R'.x t) i j) else 0) = (if t < C.depth then gf2 (bitAt (C.x t) i j) else 0) + _
    rw [hR.frame t i j (by tauto)]
    exact (add_zero _).symm

end

/-- the polynomials `1 + x` (twice) and `1`, with 1x1 coefficients -/
def onePlusX : MzdPoly := ⟨1, 1, 2, 2, fun _ _ _ => 1#64⟩
def constOne : MzdPoly := ⟨1, 1, 3, 3, fun t _ _ => if t = 0 then 1#64 else 0#64⟩

/-- **C55** (negation) `_mzd_poly_addmul_crt(C,A,B)` does not compute `C + A*B`: for `C = 1`, `A = B = 1 + x` it returns, but
`C + A*B = x^2` has no constant term and the result has. -/
theorem C55_violation_crt : ∃ R, mzdPolyAddmulCrt? stdBlmEnv 4 (some constOne) onePlusX onePlusX = some (some R) ∧
    ¬ HoldsPolySum R constOne onePlusX onePlusX := by
  obtain ⟨p, f, e1, _, q1, e2, hx, _⟩ := C40_instance
  have hf : PolyFits constOne onePlusX onePlusX := ⟨rfl, rfl, rfl⟩
  have e : mzdPolyAddmulCrt? stdBlmEnv 4 (some constOne) onePlusX onePlusX = (mzdPolyAddmulBlm? constOne onePlusX onePlusX f).map some := by
    unfold mzdPolyAddmulCrt?
    show Option.bind (crtInit? 2 2) _ = _
    rw [e1, Option.bind_some]
    show Option.bind (blmInitCrt? stdBlmEnv 4 none 2 2 p true) _ = _
    rw [e2, Option.bind_some]
  obtain ⟨s1, s2, s3⟩ := blmInit_inf e2
  rcases crtInit_spec e1 with h0 | hg
  · rw [h0] at q1; cases q1
  · obtain ⟨_, hdj, _⟩ := blmInit_exact stdBlmEnv_ok ⟨s1, s2, s3, hg.tab⟩ hg.deg (ff := none) (fun f hf => by cases hf) e2
    have hsome : ∃ R, mzdPolyAddmulBlm? constOne onePlusX onePlusX f = some R := by
      unfold mzdPolyAddmulBlm?
      rw [if_neg (not_not.2 ⟨hx.2.2.2.1, hx.2.2.2.2.1⟩), if_neg (not_not.2 ⟨hf, by rw [hx.1]; decide⟩)]
      cases hdb : f.djb with
      | none =>
        obtain ⟨X', e, _⟩ := ptrApplyBlmMzd_bits hx.2.1 hx.2.2.1 1 1 1 constOne.x onePlusX.x onePlusX.x
        refine ⟨_, congrArg (Option.map _) (Eq.trans ?_ e)⟩
        unfold ptrApplyBlm?
        rw [hdb]; rfl
      | some t =>
        obtain ⟨X', e, _⟩ := ptrApplyBlmDjb_bits hx.2.1 hx.2.2.1 (hdj t.1 t.2.1 t.2.2 hdb).1 (hdj t.1 t.2.1 t.2.2 hdb).2.1
          (hdj t.1 t.2.1 t.2.2 hdb).2.2 1 1 1 constOne.x onePlusX.x onePlusX.x
        refine ⟨_, congrArg (Option.map _) (Eq.trans ?_ e)⟩
        unfold ptrApplyBlm?
        rw [hdb]; rfl
    obtain ⟨R, eR⟩ := hsome
    rw [eR] at e
    refine ⟨R, e, fun hR => ?_⟩
    obtain ⟨R', e', h'⟩ := C55_crt hf (by decide) stdBlmEnv_ok (by decide) (by decide) (show crtInit? onePlusX.depth onePlusX.depth = some p from e1)
      (show p 1 ≠ 0 by omega) e
    cases e'
    have a1 := h'.value (0 : Fin 1) (0 : Fin 1) 0 (by decide)
    have a2 : (polyMat onePlusX.nrows onePlusX.ncols R (0 : Fin 1) (0 : Fin 1)).coeff 0 =
        (polyMat onePlusX.nrows onePlusX.ncols constOne (0 : Fin 1) (0 : Fin 1) + (polyMat onePlusX.nrows onePlusX.ncols onePlusX *
          polyMat onePlusX.ncols onePlusX.ncols onePlusX) (0 : Fin 1) (0 : Fin 1)).coeff 0 :=
      congrArg (fun M : Matrix (Fin 1) (Fin 1) (ZMod 2)[X] => (M 0 0).coeff 0) hR.value
    rw [coeff_add, a1] at a2
    have a3 : (polyMat onePlusX.nrows onePlusX.ncols constOne (0 : Fin 1) (0 : Fin 1)).coeff 0 = 0 := by
      exact (add_eq_right.1 a2.symm)
    have a4 := (polyMat_coeff 1 1 constOne 0 0 0).symm.trans a3
    exact absurd a4 (by decide)

/-- **C55** (negation) with `C == NULL` `_mzd_poly_addmul_crt` never returns a polynomial. -/
theorem C55_violation_crt_null (env : BlmEnv) (fuel : Nat) (A B R : MzdPoly) : mzdPolyAddmulCrt? env fuel none A B ≠ some (some R) := by
  unfold mzdPolyAddmulCrt?
  cases crtInit? A.depth B.depth with
  | none => exact fun h => by cases h
  | some p =>
    rw [Option.bind_some]
    cases blmInitCrt? env fuel none A.depth B.depth p true with
    | none => exact fun h => by cases h
    | some f =>
      rw [Option.bind_some]
      show Option.map (fun _ => none) _ ≠ _
      cases mzdPolyAddmulBlm? (mzdPolyInit (A.depth + B.depth - 1) A.nrows B.ncols) A B f <;> exact fun h => by cases h

/-- **C55** (negation) `_mzd_poly_addmul_crt(C,A,B)` does not return whenever `A` has more coefficients than `B` (unless `crt_init`
found no scheme at all). -/
theorem C55_violation_crt_longer_first {env : BlmEnv} (henv : BlmEnvOk env) (fuel : Nat) (C : Option MzdPoly) {A B : MzdPoly}
    (h1 : 1 ≤ B.depth) (h2 : B.depth < A.depth) {p : Nat → Nat} (hp : crtInit? A.depth B.depth = some p) {d : Nat} (hd : p d ≠ 0) :
    mzdPolyAddmulCrt? env fuel C A B = none := by
  unfold mzdPolyAddmulCrt?
  rw [hp, Option.bind_some, C40_violation_crt_longer_first henv h1 h2 hp hd fuel true]
  rfl

/-- **C55** (negation) for two polynomials of depth 4 `_mzd_poly_addmul_crt` does not return. -/
theorem C55_violation_crt_hang {env : BlmEnv} (henv : BlmEnvOk env) (fuel : Nat) (C : Option MzdPoly) {A B : MzdPoly} (hA : A.depth = 4) (hB : B.depth = 4) :
    mzdPolyAddmulCrt? env fuel C A B = none := by
  obtain ⟨p, e, h⟩ := C40_violation_hang henv
  unfold mzdPolyAddmulCrt?
  rw [hA, hB, e, Option.bind_some, h fuel true]
  rfl

/-- the number of field elements is sufficient -/
theorem clog_facts {d : Nat} (h3 : 3 ≤ d) (h : d ≤ 65536) : 2 ≤ Nat.clog 2 d ∧ Nat.clog 2 d ≤ 16 ∧ d ≤ 2 ^ Nat.clog 2 d := by
  refine ⟨?_, ?_, Nat.le_pow_clog (by norm_num) _⟩
  · by_contra hn
    have : d ≤ 2 ^ 1 := Nat.clog_le_iff_le_pow (by norm_num) |>.1 (by omega)
    omega
  · exact Nat.clog_le_iff_le_pow (by norm_num) |>.2 (by norm_num; exact h)

/-- **C55** `_mzd_poly_addmul_ext1(C,A,B)` gives `C + A*B` whenever the product has between 3 and 65536 coefficients. -/
theorem C55_ext1 {cb : Codebook} (optK : Nat) (small : Bool) (fid : Nat) {C A B : MzdPoly} (hf : PolyFits C A B)
    (hd : A.depth + B.depth - 1 ≤ C.depth) (h1 : 1 ≤ A.depth) (h2 : 1 ≤ B.depth) (h3 : 3 ≤ A.depth + B.depth - 1) (h16 : A.depth + B.depth - 1 ≤ 65536)
    (hcb : cb.Ok (Nat.clog 2 (A.depth + B.depth - 1))) :
    ∃ R, mzdPolyAddmulExt1? cb optK small fid C A B = some R ∧ HoldsPolySum R C A B := by
  obtain ⟨c1, c2, c3⟩ := clog_facts h3 h16
  have hlen : 0 < (irredTable (Nat.clog 2 (A.depth + B.depth - 1))).length := by
    rw [(C09_nodup_count _).2]
    revert c1 c2
    generalize Nat.clog 2 (A.depth + B.depth - 1) = k
    intro c1 c2
    interval_cases k <;> decide
  set n := (irredTable (Nat.clog 2 (A.depth + B.depth - 1)))[0] with hn
  have hmem : n ∈ irredTable (Nat.clog 2 (A.depth + B.depth - 1)) := List.getElem_mem hlen
  obtain ⟨g1, g2⟩ := C09_irreducible _ n hmem
  obtain ⟨ff, e1, e2, e3, e4⟩ := C09_init_field _ n hmem (by omega) c2
  have hF : IsField ff := ⟨BitVec.ofNat 64 n, by rw [g1]; exact c1, by rw [g1]; exact c2, g2, e1⟩
  obtain ⟨R, eR, hR⟩ := ext1Body_spec (ff := ff) (by rw [e2]; exact hcb) optK small fid hf h1 h2 rfl (by omega) hd (by rw [e2]; exact c3)
  refine ⟨R, ?_, hR⟩
  unfold mzdPolyAddmulExt1?
  rw [if_neg (by omega)]
  show (if ¬ (PolyFits C A B ∧ A.depth + B.depth - 1 ≤ C.depth) then none else _) = _
  rw [if_neg (not_not.2 ⟨hf, hd⟩), if_neg (by omega), List.getElem?_eq_getElem hlen, ← hn, Option.bind_some, e1, Option.bind_some, if_neg]
  · exact eR
  · rw [e2]
    revert c1 c2
    generalize Nat.clog 2 (A.depth + B.depth - 1) = k
    intro c1 c2
    interval_cases k <;> decide

/-- **C55** (negation) if the product has one or two coefficients `_mzd_poly_addmul_ext1` crashes: it asks for an irreducible
polynomial of degree 0, or creates a packed matrix over a field of degree 1. -/
theorem C55_violation_ext1 (cb : Codebook) (optK : Nat) (small : Bool) (fid : Nat) (C : MzdPoly) {A B : MzdPoly}
    (h : A.depth + B.depth = 2 ∨ A.depth + B.depth = 3) : mzdPolyAddmulExt1? cb optK small fid C A B = none := by
  unfold mzdPolyAddmulExt1?
  by_cases h0 : A.depth = 0 ∨ B.depth = 0
  · exact if_pos h0
  rw [if_neg h0]
  show (if ¬ (PolyFits C A B ∧ A.depth + B.depth - 1 ≤ C.depth) then none else _) = _
  by_cases hf : ¬ (PolyFits C A B ∧ A.depth + B.depth - 1 ≤ C.depth)
  · exact if_pos hf
  rw [if_neg hf]
  rcases h with h | h
  · have : Nat.clog 2 (A.depth + B.depth - 1) = 0 := by rw [h]; decide
    rw [this]
    rfl
  · have : Nat.clog 2 (A.depth + B.depth - 1) = 1 := by rw [h]; decide
    rw [this, if_neg (by decide)]
    have hl : (irredTable 1)[0]? = some ((irredTable 1)[0]'(by decide)) := List.getElem?_eq_getElem (by decide)
    obtain ⟨ff, e1, e2, _⟩ := C09_init_field 1 ((irredTable 1)[0]'(by decide)) (List.getElem_mem _) (by decide) (by decide)
    rw [hl, Option.bind_some, e1, Option.bind_some, e2]
    rfl

/-! ### C56: addition, depth changes, comparison -/

/-- **C56** `mzd_poly_add(C,A,B)` for operands of equal depth, at most that of `C`: the first coefficients of `C` are *replaced* by
`A + B` (the documentation says `C += A+B`), everything else is unchanged. -/
theorem C56_add {C A B : MzdPoly} (hd : A.depth ≤ C.depth) (he : A.depth = B.depth) (hr : A.nrows = B.nrows ∧ C.nrows = A.nrows)
    (hc : A.ncols = B.ncols ∧ C.ncols = A.ncols) : ∃ R, mzdPolyAdd? C A B = some R ∧ PolySame R C ∧
      (∀ i j t, t < A.depth → (polyMat A.nrows A.ncols R i j).coeff t = ((polyMat A.nrows A.ncols A + polyMat A.nrows A.ncols B) i j).coeff t) ∧
      ∀ t i j, ¬ (t < A.depth ∧ i < A.nrows ∧ j < A.ncols) → bitAt (R.x t) i j = bitAt (C.x t) i j := by
  have hok : polyAddOk C A B 0 = true := by
    unfold polyAddOk
    rw [decide_eq_true ⟨by omega, by omega⟩, decide_eq_true ⟨hr.1, hc.1, hr.2, hc.2⟩, Bool.or_true, Bool.and_true]
  have hx : ∀ t i j, bitAt ((fun k => if 0 ≤ k then ptrAdd A.nrows A.ncols (fun k => C.x (0 + k)) A.x B.x A.depth (k - 0) else C.x k) t) i j =
      if t < A.depth ∧ i < A.nrows ∧ j < A.ncols then (bitAt (A.x t) i j).xor (bitAt (B.x t) i j) else bitAt (C.x t) i j := by
    intro t i j
    show bitAt (if 0 ≤ t then ptrAdd A.nrows A.ncols (fun k => C.x (0 + k)) A.x B.x A.depth (t - 0) else C.x t) i j = _
    rw [if_pos (Nat.zero_le t), Nat.sub_zero]
    unfold ptrAdd
    by_cases ht : t < A.depth
    · rw [if_pos ht, bitAt_mzdAdd]
      by_cases h : i < A.nrows ∧ j < A.ncols
      · rw [if_pos h, if_pos ⟨ht, h⟩]
      · rw [if_neg h, if_neg (by tauto)]
        show bitAt (C.x (0 + t)) i j = _
        rw [Nat.zero_add]
    · rw [if_neg ht, if_neg (by tauto)]
      show bitAt (C.x (0 + t)) i j = _
      rw [Nat.zero_add]
  refine ⟨{ C with x := fun k => if 0 ≤ k then ptrAdd A.nrows A.ncols (fun k => C.x (0 + k)) A.x B.x A.depth (k - 0) else C.x k }, ?_, ⟨rfl, rfl, rfl, rfl⟩,
    fun i j t ht => ?_, fun t i j h => ?_⟩
  · unfold mzdPolyAdd? mzdPolyAddOff?
    rw [if_pos ⟨hd, he⟩, if_pos hok]
  · rw [polyMat_coeff, Matrix.add_apply, coeff_add, polyMat_coeff, polyMat_coeff, if_pos ht, if_pos (show t < B.depth by omega)]
    show (if t < C.depth then gf2 _ else 0) = _
    rw [if_pos (show t < C.depth by omega), hx, if_pos ⟨ht, i.2, j.2⟩]
    exact map_add gf2Hom _ _
  · exact (hx t i j).trans (if_neg h)

/-- **C56** `_mzd_poly_adapt_depth(A,d)` to at most the number of coefficients given to `mzd_poly_init`: the depth is `d`, the first
coefficients are kept and the new ones are zero. -/
theorem C56_adapt_depth {A : MzdPoly} {d : Nat} (h : d ≤ A.cap) : ∃ R, mzdPolyAdaptDepth? A d = some R ∧
    R.nrows = A.nrows ∧ R.ncols = A.ncols ∧ R.cap = A.cap ∧ R.depth = d ∧
    ∀ m n i j t, t < d → (polyMat m n R i j).coeff t = (polyMat m n A i j).coeff t := by
  by_cases hd : d < A.depth
  · refine ⟨{ A with depth := d }, if_pos hd, rfl, rfl, rfl, rfl, fun m n i j t ht => ?_⟩
    rw [polyMat_coeff, polyMat_coeff]
    show (if t < d then _ else _) = _
    rw [if_pos ht, if_pos (by omega)]
  · have main : ∀ k, A.depth + k ≤ A.cap → forNM (fun i (B : MzdPoly) => if A.depth + i < B.cap then some { B with x := setSlice B.x (A.depth + i) zeroW } else none)
        k A = some { A with x := fun t => if A.depth ≤ t ∧ t < A.depth + k then zeroW else A.x t } := by
      intro k
      induction k with
      | zero =>
        intro _
        refine congrArg some ?_
        have : (fun t => if A.depth ≤ t ∧ t < A.depth + 0 then zeroW else A.x t) = A.x := by
          funext t; exact if_neg (by omega)
        rw [this]
      | succ k ih =>
        intro hk
        rw [forNM, ih (by omega), Option.bind_some]
        show (if A.depth + k < A.cap then some _ else none) = _
        rw [if_pos (by omega)]
        refine congrArg some ?_
        have : setSlice (fun t => if A.depth ≤ t ∧ t < A.depth + k then zeroW else A.x t) (A.depth + k) zeroW =
            fun t => if A.depth ≤ t ∧ t < A.depth + (k + 1) then zeroW else A.x t := by
          funext t
          unfold setSlice
          by_cases h1 : t = A.depth + k
          · rw [if_pos h1, if_pos (by omega)]
          · rw [if_neg h1]
            show (if A.depth ≤ t ∧ t < A.depth + k then zeroW else A.x t) = _
            by_cases h2 : A.depth ≤ t ∧ t < A.depth + k
            · rw [if_pos h2, if_pos (by omega)]
            · rw [if_neg h2, if_neg (by omega)]
        rw [this]
    refine ⟨{ A with depth := d, x := fun t => if A.depth ≤ t ∧ t < A.depth + (d - A.depth) then zeroW else A.x t }, ?_, rfl, rfl, rfl, rfl,
      fun m n i j t ht => ?_⟩
    · unfold mzdPolyAdaptDepth?
      rw [if_neg hd, main _ (by omega)]; rfl
    · rw [polyMat_coeff, polyMat_coeff]
      show (if t < d then gf2Entry (if A.depth ≤ t ∧ t < A.depth + (d - A.depth) then zeroW else A.x t) i j else 0) = _
      rw [if_pos ht]
      by_cases h1 : t < A.depth
      · rw [if_pos h1, if_neg (by omega)]
      · rw [if_neg h1, if_pos (by omega)]
        have : bitAt zeroW i j = false := by simp [bitAt, zeroW]
        show gf2 (bitAt zeroW i j) = 0
        rw [this]; rfl

/-- **C56** (negation) growing a polynomial made by `mzd_poly_init` writes behind the end of its coefficient array, although "new depth
may be <,=,> than current depth". -/
theorem C56_violation_adapt_depth (d m n : Nat) {e : Nat} (h : d + 1 < e) : mzdPolyAdaptDepth? (mzdPolyInit d m n) e = none := by
  unfold mzdPolyAdaptDepth?
  show (if e < d + 1 then _ else _) = _
  rw [if_neg (by omega)]
  have hk : e - (d + 1) = (e - (d + 1) - 1) + 1 := by omega
  show Option.map _ (forNM (fun i (B : MzdPoly) => if d + 1 + i < B.cap then some { B with x := setSlice B.x (d + 1 + i) zeroW } else none) (e - (d + 1)) _) = none
  have main : ∀ k, forNM (fun i (B : MzdPoly) => if d + 1 + i < B.cap then some { B with x := setSlice B.x (d + 1 + i) zeroW } else none) (k + 1)
      (mzdPolyInit d m n) = none := by
    intro k
    induction k with
    | zero =>
      rw [forNM, forNM, Option.bind_some]
      show (if d + 1 + 0 < d + 1 then _ else none) = _
      rw [if_neg (by omega)]
    | succ k ih => rw [forNM, ih]; rfl
  rw [hk, main]; rfl

/-- what M4RI's `mzd_cmp` must satisfy: 0 exactly for equal matrices -/
def CmpOk (cmp : (Nat × Nat) × (Nat → Nat → Word) → (Nat × Nat) × (Nat → Nat → Word) → BitVec 32) : Prop :=
  ∀ A B, cmp A B = 0#32 ↔ A.1 = B.1 ∧ ∀ i j, i < A.1.1 → j < A.1.2 → bitAt A.2 i j = bitAt B.2 i j

/-- **C56** `mzd_poly_cmp(A,B)` is 0 exactly for equal polynomials of equal depth (with coefficients of the same dimensions). -/
theorem C56_cmp {cmp : (Nat × Nat) × (Nat → Nat → Word) → (Nat × Nat) × (Nat → Nat → Word) → BitVec 32} (hcmp : CmpOk cmp) {A B : MzdPoly}
    (hr : A.nrows = B.nrows) (hc : A.ncols = B.ncols) : mzdPolyCmp cmp A B = 0#32 ↔
      A.depth = B.depth ∧ polyMat A.nrows A.ncols A = polyMat A.nrows A.ncols B := by
  unfold mzdPolyCmp
  by_cases hd : A.depth = B.depth
  · rw [if_neg (not_not.2 hd)]
    have main : ∀ n, forN (fun i r => r ||| cmp ((A.nrows, A.ncols), A.x i) ((B.nrows, B.ncols), B.x i)) n 0#32 = 0#32 ↔
        ∀ t, t < n → ∀ i j, i < A.nrows → j < A.ncols → bitAt (A.x t) i j = bitAt (B.x t) i j := by
      intro n
      induction n with
      | zero => exact ⟨fun _ t ht => absurd ht (Nat.not_lt_zero t), fun _ => rfl⟩
      | succ n ih =>
        rw [forN, BitVec.or_eq_zero_iff, ih, hcmp]
        constructor
        · rintro ⟨h1, _, h2⟩ t ht
          by_cases h : t = n
          · subst h; exact h2
          · exact h1 t (by omega)
        · intro h
          exact ⟨fun t ht => h t (by omega), by rw [hr, hc], h n (by omega)⟩
    rw [main]
    constructor
    · intro h
      refine ⟨hd, ?_⟩
      ext i j t
      rw [polyMat_coeff, polyMat_coeff, ← hd]
      by_cases ht : t < A.depth
      · rw [if_pos ht, if_pos ht]
        exact congrArg gf2 (h t ht i j i.2 j.2)
      · rw [if_neg ht, if_neg ht]
    · rintro ⟨_, h⟩ t ht i j hi hj
      have := congrArg (fun M => (M ⟨i, hi⟩ ⟨j, hj⟩).coeff t) h
      simp only [polyMat_coeff, ← hd, ht, if_true] at this
      exact gf2_inj this
  · rw [if_pos hd]
    constructor
    · intro h
      by_cases hl : A.depth < B.depth
      · rw [if_pos hl] at h; exact absurd h (by decide)
      · rw [if_neg hl] at h; exact absurd h (by decide)
    · exact fun h => absurd h.1 hd

-- 3x2 times 2x5 matrices, depths 5 and 4: the product has 8 coefficients, the field is GF(2^3)
example : ∃ C A B : MzdPoly, PolyFits C A B ∧ A.depth + B.depth - 1 ≤ C.depth ∧ 3 ≤ A.depth + B.depth - 1 ∧ grayCode.Ok (Nat.clog 2 (A.depth + B.depth - 1)) ∧
    bitAt (A.x 4) 2 1 = true ∧ bitAt (C.x 7) 2 1 = true :=
  ⟨⟨3, 5, 8, 8, fun _ _ _ => 2#64⟩, ⟨3, 2, 5, 5, fun _ _ _ => 3#64⟩, ⟨2, 5, 4, 4, fun _ _ _ => 1#64⟩, ⟨rfl, rfl, rfl⟩, by decide, by decide, grayCode_ok _, by decide, by decide⟩

-- polynomials of equal depth 7
example : ∃ C A B : MzdPoly, PolyFits C A B ∧ A.depth + B.depth - 1 ≤ C.depth ∧ 1 ≤ A.depth ∧ A.depth ≤ 16 ∧ A.depth = B.depth ∧ bitAt (A.x 6) 2 1 = true :=
  ⟨⟨3, 5, 13, 13, fun _ _ _ => 2#64⟩, ⟨3, 2, 7, 7, fun _ _ _ => 3#64⟩, ⟨2, 5, 7, 7, fun _ _ _ => 1#64⟩, ⟨rfl, rfl, rfl⟩, by decide, by decide, by decide, rfl, by decide⟩

end M4rie.Props
