import Verif.Proofs.BlmCrt
import Verif.Proofs.BlmSmall
import Verif.Proofs.BlmEnv
import Verif.Props.Kara

/-!
# Properties C40, C41, C54: CRT schemes, bilinear maps, multiplication through bilinear maps

`env` stands for the M4RI functions `mzd_ple`, `mzd_inv_m4ri` and `djb_compile`, constrained by `BlmEnvOk` (see `Verif.Spec.Blm`);
`fuel` bounds the number of iterations of the search loop of `_blm_finish_polymult`: a result `some _` for some `fuel` means that
the C function returns, `none` for every `fuel` means that it does not (or crashes).
-/

namespace M4rie.Props
open M4rie M4rie.Spec Finset

/-! ### C41 -/

/-- **C41** the matrix method *adds* the value of the bilinear map to `X[0..]` and changes nothing else. -/
theorem C41_mzd_accumulates {f : Blm} (h1 : f.H.ncols = f.F.nrows) (h2 : f.F.nrows = f.G.nrows) (m k n : Nat) (X A B : Nat → Nat → Nat → Word) :
    ∃ X', ptrApplyBlmMzd? f m k n X A B = some X' ∧
      (∀ j, j < f.H.nrows → gf2Mat m n (X' j) = gf2Mat m n (X j) + blmValue f m k n A B j) ∧
      ∀ j r c, ¬ (r < m ∧ c < n ∧ j < f.H.nrows) → bitAt (X' j) r c = bitAt (X j) r c := by
  obtain ⟨X', e, h⟩ := ptrApplyBlmMzd_bits h1 h2 m k n X A B
  refine ⟨X', e, fun j hj => ?_, fun j r c hn => ?_⟩
  · ext r c
    show gf2 _ = gf2 _ + blmValue f m k n A B j r c
    rw [h, decide_eq_true ⟨r.2, c.2, hj⟩, blmValue_bit, ← gf2Hom_apply, map_add]
    refine congrArg (gf2Hom _ + ·) (congrArg gf2Hom ?_)
    exact one_mul _
  · rw [h, decide_eq_false hn]
    exact (congrArg _ (zero_mul _)).trans (add_zero _)

/-- the straight-line programs of `f` compute its three matrices -/
def Compiled (f : Blm) (pf pg ph : List DjbOp) : Prop :=
  DjbComputes f.F.nrows f.F.ncols f.F.w pf ∧ DjbComputes f.G.nrows f.G.ncols f.G.w pg ∧ DjbComputes f.H.nrows f.H.ncols f.H.w ph

/-- **C41** the compiled method gives the value of the bilinear map if the matrices `X[j]` are zero on entry; so both methods agree
on zeroed results. -/
theorem C41_agree_on_zero {f : Blm} (h1 : f.H.ncols = f.F.nrows) (h2 : f.F.nrows = f.G.nrows) {pf pg ph : List DjbOp} (hp : Compiled f pf pg ph)
    (m k n : Nat) (X A B : Nat → Nat → Nat → Word) (hX : ∀ j, j < f.H.nrows → gf2Mat m n (X j) = 0) :
    ∃ X' X'', ptrApplyBlmDjb? f pf pg ph m k n X A B = some X' ∧ ptrApplyBlmMzd? f m k n X A B = some X'' ∧
      (∀ j, j < f.H.nrows → gf2Mat m n (X' j) = blmValue f m k n A B j) ∧ ∀ j r c, bitAt (X' j) r c = bitAt (X'' j) r c := by
  have hz : ∀ j r c, j < f.H.nrows → r < m → c < n → bitAt (X j) r c = false := by
    intro j r c hj hr hc
    have := congrFun (congrFun (hX j hj) ⟨r, hr⟩) ⟨c, hc⟩
    exact gf2_eq_zero.1 this
  obtain ⟨X'', e2, b2⟩ := ptrApplyBlmMzd_bits h1 h2 m k n X A B
  obtain ⟨X', e1, b1⟩ := ptrApplyBlm_zero (f := { f with djb := some (pf, pg, ph) }) h1 h2 (by
    intro a b c h
    cases h
    exact hp) m k n X A B (fun _ => hz)
  refine ⟨X', X'', e1, e2, fun j hj => ?_, fun j r c => (b1 j r c).trans (b2 j r c).symm⟩
  ext r c
  show gf2 (bitAt (X' j) r c) = blmValue f m k n A B j r c
  rw [b1, decide_eq_true ⟨r.2, c.2, hj⟩, hz j r c hj r.2 c.2, blmValue_bit]
  exact congrArg gf2 ((zero_add _).trans (one_mul _))

/-- **C41** (negation) in general the two methods do *not* agree: the compiled method overwrites `X[j]` if it has an instruction for
row `j`, and leaves it alone otherwise. -/
theorem C41_djb_overwrites {f : Blm} (h1 : f.H.ncols = f.F.nrows) (h2 : f.F.nrows = f.G.nrows) {pf pg ph : List DjbOp} (hp : Compiled f pf pg ph)
    (m k n : Nat) (X A B : Nat → Nat → Nat → Word) :
    ∃ X', ptrApplyBlmDjb? f pf pg ph m k n X A B = some X' ∧ ∀ j, j < f.H.nrows → gf2Mat m n (X' j) =
      if ∃ o ∈ ph, o.target = j then blmValue f m k n A B j else gf2Mat m n (X j) := by
  obtain ⟨X', e, h⟩ := ptrApplyBlmDjb_bits h1 h2 hp.1 hp.2.1 hp.2.2 m k n X A B
  refine ⟨X', e, fun j hj => ?_⟩
  by_cases hT : ∃ o ∈ ph, o.target = j
  · rw [if_pos hT]
    ext r c
    show gf2 (bitAt (X' j) r c) = blmValue f m k n A B j r c
    rw [h, if_pos ⟨r.2, c.2, hT⟩, blmValue_bit]
  · rw [if_neg hT]
    ext r c
    show gf2 (bitAt (X' j) r c) = gf2 (bitAt (X j) r c)
    rw [h, if_neg (fun hh => hT hh.2.2)]

/-- the bilinear map `x, y ↦ x * y` of 1x1 matrices -/
def unitBlm : Blm := ⟨⟨1, 1, fun _ _ => 1#64⟩, ⟨1, 1, fun _ _ => 1#64⟩, ⟨1, 1, fun _ _ => 1#64⟩, none⟩

theorem unitBlm_compiled : Compiled unitBlm (naiveDjb 1 1 fun _ _ => 1#64) (naiveDjb 1 1 fun _ _ => 1#64) (naiveDjb 1 1 fun _ _ => 1#64) :=
  ⟨naive_ok 1 1 _, naive_ok 1 1 _, naive_ok 1 1 _⟩

/-- **C41** (negation) a concrete disagreement: `X[0] = 1`, `A[0] = B[0] = 1`. -/
theorem C41_violation : ∃ X' X'', ptrApplyBlmDjb? unitBlm (naiveDjb 1 1 fun _ _ => 1#64) (naiveDjb 1 1 fun _ _ => 1#64) (naiveDjb 1 1 fun _ _ => 1#64)
      1 1 1 (fun _ _ _ => 1#64) (fun _ _ _ => 1#64) (fun _ _ _ => 1#64) = some X' ∧
    ptrApplyBlmMzd? unitBlm 1 1 1 (fun _ _ _ => 1#64) (fun _ _ _ => 1#64) (fun _ _ _ => 1#64) = some X'' ∧
    gf2Mat 1 1 (X' 0) = 1 ∧ gf2Mat 1 1 (X'' 0) = 0 := by
  have hv : blmValue unitBlm 1 1 1 (fun _ _ _ => 1#64) (fun _ _ _ => 1#64) 0 = 1 := by
    ext r c
    have hr : r = 0 := Subsingleton.elim _ _
    have hc : c = 0 := Subsingleton.elim _ _
    subst hr; subst hc
    rw [blmValue_bit]
    decide
  have h0 : gf2Mat 1 1 (fun _ _ => 1#64) = 1 := by decide
  obtain ⟨X', e1, b1⟩ := C41_djb_overwrites (f := unitBlm) rfl rfl unitBlm_compiled 1 1 1 (fun _ _ _ => 1#64) (fun _ _ _ => 1#64) (fun _ _ _ => 1#64)
  obtain ⟨X'', e2, b2, _⟩ := C41_mzd_accumulates (f := unitBlm) rfl rfl 1 1 1 (fun _ _ _ => 1#64) (fun _ _ _ => 1#64) (fun _ _ _ => 1#64)
  refine ⟨X', X'', e1, e2, ?_, ?_⟩
  · rw [b1 0 Nat.zero_lt_one, if_pos (by decide), hv]
  · rw [b2 0 Nat.zero_lt_one, hv, h0]; decide

/-! ### C40 -/

/-- **C40** `crt_init(f_len,g_len)` returns for all lengths up to the capacity of the irreducible polynomial tables (degree at most
16): either the all-zero scheme, or a scheme that uses each irreducible polynomial at most once, determines at least
`f_len+g_len-1` coefficients, and needs fewer than `f_len*g_len` products. -/
theorem C40_crt_init {fLen gLen : Nat} (h : fLen + gLen ≤ 130487) : ∃ p, crtInit? fLen gLen = some p ∧ ((∀ d, p d = 0) ∨
    (p 0 ≤ 7 ∧ (∀ d, 1 ≤ d → d ≤ 16 → p d ≤ (irredTable d).length) ∧ fLen + gLen - 1 ≤ p 0 + ∑ d ∈ range 16, (d + 1) * p (d + 1) ∧
      blmCostCrt p < fLen * gLen)) := by
  obtain ⟨p, e⟩ := crtInit_some h
  refine ⟨p, e, ?_⟩
  rcases crtInit_spec e with h | h
  · exact Or.inl fun d => by rw [h]
  · refine Or.inr ⟨h.inf, fun d h1 h2 => ?_, ?_, h.cost⟩
    · rw [(C09_nodup_count d).2]; exact h.tab d h1 h2
    · have := h.deg
      show _ ≤ schemeDegree p
      omega

/-- **C40** `crt_init` finds a scheme better than the schoolbook product if both lengths are at least 13, and for equal lengths from 2
on. -/
theorem C40_crt_init_useful {fLen gLen : Nat} (h : fLen + gLen ≤ 130487) (hl : 13 ≤ fLen ∧ 13 ≤ gLen ∨ 2 ≤ fLen ∧ fLen = gLen) :
    ∃ p d, crtInit? fLen gLen = some p ∧ p d ≠ 0 ∧ blmCostCrt p < fLen * gLen := by
  obtain ⟨p, e⟩ := crtInit_some h
  have main : 13 ≤ fLen → 13 ≤ gLen → ∃ p d, crtInit? fLen gLen = some p ∧ p d ≠ 0 ∧ blmCostCrt p < fLen * gLen := by
    intro h1 h2
    have hg : GoodScheme fLen gLen p := crtInit_useful (by omega) (by
      obtain ⟨a, rfl⟩ : ∃ a, fLen = 13 + a := ⟨fLen - 13, by omega⟩
      obtain ⟨b, rfl⟩ : ∃ b, gLen = 13 + b := ⟨gLen - 13, by omega⟩
      have : (13 + a) * (13 + b) = 169 + 13 * a + 13 * b + a * b := by ring
      omega) e
    by_contra hn
    have hz : ∀ d, p d = 0 := fun d => by
      by_contra hd
      exact hn ⟨p, d, e, hd, hg.cost⟩
    have hdeg := hg.deg
    unfold schemeDegree at hdeg
    rw [hz 0, Finset.sum_eq_zero fun d _ => by rw [hz (d + 1), mul_zero]] at hdeg
    omega
  rcases hl with ⟨h1, h2⟩ | ⟨h1, h2⟩
  · exact main h1 h2
  · by_cases h13 : 13 ≤ fLen
    · exact main h13 (by omega)
    · subst h2
      have hsmall : ∀ n, n < 13 → 2 ≤ n → (crtInit? n n).map (fun p => decide (p 1 ≠ 0 ∧ blmCostCrt p < n * n)) = some true := by decide +kernel
      have := hsmall fLen (by omega) h1
      rw [e, Option.map_some, Option.some.injEq, decide_eq_true_eq] at this
      exact ⟨p, 1, e, this⟩

section
variable {env : BlmEnv} (henv : BlmEnvOk env)
include henv

/-- **C40** every bilinear map that `blm_init_crt(NULL,f_len,g_len,p,djb)` returns for a scheme `p` with distinct moduli and enough
degree multiplies polynomials exactly. -/
theorem C40_exact {fuel fLen gLen : Nat} {p : Nat → Nat} (htab : ∀ d, 1 ≤ d → d ≤ 16 → p d ≤ (irredTable d).length)
    (hdeg : fLen + gLen - 1 ≤ p 0 + ∑ d ∈ range 16, (d + 1) * p (d + 1)) {djb : Bool} {f : Blm}
    (h : blmInitCrt? env fuel none fLen gLen p djb = some f) : PolyExact fLen gLen f ∧ f.F.nrows = blmCostCrt p := by
  obtain ⟨h1, h2, h3⟩ := blmInit_inf h
  have hs : SchemeOk fLen gLen p := ⟨h1, h2, h3, fun d hd1 hd2 => by rw [← (C09_nodup_count d).2]; exact htab d hd1 hd2⟩
  obtain ⟨e, _, e3⟩ := blmInit_exact henv hs (by
    have : fLen + gLen - 1 ≤ schemeDegree p := hdeg
    omega) (ff := none) (fun f hf => by cases hf) h
  exact ⟨e, e3⟩

/-- **C40** in particular for the schemes of `crt_init`, unless it returned the all-zero scheme. -/
theorem C40_crt_exact {fuel fLen gLen : Nat} {p : Nat → Nat} (hp : crtInit? fLen gLen = some p) {d : Nat} (hd : p d ≠ 0) {djb : Bool} {f : Blm}
    (h : blmInitCrt? env fuel none fLen gLen p djb = some f) : PolyExact fLen gLen f ∧ f.F.nrows < fLen * gLen := by
  rcases crtInit_spec hp with h0 | hg
  · rw [h0] at hd; exact absurd rfl hd
  · obtain ⟨e1, e2⟩ := C40_exact henv (fun d h1 h2 => by rw [(C09_nodup_count d).2]; exact hg.tab d h1 h2) (by
      have := hg.deg
      show _ ≤ schemeDegree p
      omega) h
    exact ⟨e1, by rw [e2]; exact hg.cost⟩

omit henv in
/-- **C40** what an exact map is good for: its value at `X[t]` is the coefficient of `x^t` of the product of the polynomials
`∑ A[a] x^a` and `∑ B[b] x^b` with matrix coefficients. -/
theorem C40_product {fLen gLen : Nat} {f : Blm} (h : PolyExact fLen gLen f) (m k n : Nat) (A B : Nat → Nat → Nat → Word) {t : Nat}
    (ht : t < fLen + gLen - 1) : blmValue f m k n A B t =
      ∑ ab ∈ range fLen ×ˢ range gLen with ab.1 + ab.2 = t, gf2Mat m k (A ab.1) * gf2Mat k n (B ab.2) := by
  ext r c
  rw [blmValue_bit, blmBit_exact (nr := fLen + gLen - 1) (val := blmVal none) h ht (V := fun s j => decide (s = j)) (fun a b _ _ => by
    show _ = if a + b = t then 1 else 0
    by_cases hab : a + b = t
    · rw [decide_eq_true hab, if_pos hab]; rfl
    · rw [decide_eq_false hab, if_neg hab]; rfl), Finset.sum_filter, Finset.sum_product, Matrix.sum_apply, ← gf2Hom_apply, map_sum]
  refine Finset.sum_congr rfl fun a _ => ?_
  rw [Matrix.sum_apply, map_sum]
  refine Finset.sum_congr rfl fun b _ => ?_
  rw [map_mul]
  show gf2Hom (decide (a + b = t)) * _ = (if a + b = t then gf2Mat m k (A a) * gf2Mat k n (B b) else 0) r c
  by_cases hab : a + b = t
  · rw [if_pos hab, decide_eq_true hab, show gf2Hom true = 1 from rfl, one_mul, map_sum, Matrix.mul_apply,
      ← Fin.sum_univ_eq_sum_range (fun l => gf2Hom (bitAt (A a) r l * bitAt (B b) l c))]
    exact Finset.sum_congr rfl fun l _ => map_mul gf2Hom _ _
  · rw [if_neg hab, decide_eq_false hab, show gf2Hom false = 0 from rfl, zero_mul]; rfl

/-- **C40** when `blm_init_crt` returns: for `1 ≤ f_len ≤ g_len` exactly if the products of the pairs `v ≤ w` of coefficients span
the space of all products; then it does so after at most `f_len*g_len` iterations. -/
theorem C40_returns_iff {fLen gLen : Nat} (h1 : 1 ≤ fLen) (h2 : fLen ≤ gLen) {p : Nat → Nat} (h0 : p 0 ≤ fLen) (h16 : p 0 ≤ 16)
    (htab : ∀ d, 1 ≤ d → d ≤ 16 → p d ≤ (irredTable d).length) (djb : Bool) :
    ∃ m s, blmMaps? fLen gLen p = some (m, s) ∧ (PairsSpan m fLen gLen s.F s.G → ∀ fuel, fLen * gLen ≤ fuel →
      ∃ f, blmInitCrt? env fuel none fLen gLen p djb = some f) ∧
      (¬ PairsSpan m fLen gLen s.F s.G → ∀ fuel, blmInitCrt? env fuel none fLen gLen p djb = none) := by
  have hs : SchemeOk fLen gLen p := ⟨h16, h0, by omega, fun d hd1 hd2 => by rw [← (C09_nodup_count d).2]; exact htab d hd1 hd2⟩
  obtain ⟨s, e, _⟩ := blmMaps_spec hs
  refine ⟨_, s, e, fun hsp fuel hf => ?_, fun hsp fuel => ?_⟩
  · exact blmInit_some henv h1 h2 e hsp hf (fun f hf => by cases hf) djb
  · cases hb : blmInitCrt? env fuel none fLen gLen p djb with
    | none => rfl
    | some f => exact absurd (blmInit_span henv e hb) hsp

/-- **C40** (negation) for polynomials of length 1 `crt_init` returns the all-zero scheme, and the bilinear map built from it is zero
instead of the product. -/
theorem C40_violation_length_one {fLen gLen : Nat} (h1 : 1 ≤ fLen) (h2 : 1 ≤ gLen) (h : fLen = 1 ∨ gLen = 1) {p : Nat → Nat}
    (hp : crtInit? fLen gLen = some p) (fuel : Nat) (djb : Bool) :
    (∀ d, p d = 0) ∧ ∃ f, blmInitCrt? env fuel none fLen gLen p djb = some f ∧ ¬ PolyExact fLen gLen f ∧
      ∀ m k n A B t, blmValue f m k n A B t = 0 := by
  have h0 := crtInit_one h hp
  subst h0
  have hs : SchemeOk fLen gLen (fun _ => 0) := ⟨by omega, by omega, by omega, fun _ _ _ => by omega⟩
  obtain ⟨s, e, _⟩ := blmMaps_spec hs
  have hc : blmCostCrt (fun _ => 0) = 0 := rfl
  rw [hc] at e
  have hl : ∀ FT GT st, st.rank = 0 → finLoop env 0 fLen gLen FT GT fuel st = some st := fun FT GT st _ => finLoop_done (by omega)
  refine ⟨fun _ => rfl, ?_⟩
  rw [blmInit_eq e, blmFinish_eq, hl _ _ _ rfl, Option.bind_some, Option.map_some]
  have hrows : ∀ H, (blmBuild env 0 fLen gLen s djb H).F.nrows = 0 := by intro H; unfold blmBuild; cases djb <;> rfl
  refine ⟨_, rfl, ?_, fun m k n A B t => ?_⟩
  · intro hx
    have := hx.2.2.2.2.2 0 0 0 (by omega) (by omega) (by omega)
    rw [hrows, range_zero, sum_empty, if_pos rfl] at this
    exact absurd this (by decide)
  · unfold blmValue
    rw [hrows, range_zero, sum_empty]

/-- **C40** (negation) for two polynomials of length 4 the scheme of `crt_init` needs 11 products, but the search of
`_blm_finish_polymult` only tries the 10 pairs `v ≤ w`: `blm_init_crt` never returns. -/
theorem C40_violation_hang : ∃ p, crtInit? 4 4 = some p ∧ ∀ fuel djb, blmInitCrt? env fuel none 4 4 p djb = none := by
  obtain ⟨p, e⟩ := crtInit_some (fLen := 4) (gLen := 4) (by omega)
  have hval : (crtInit? 4 4).map (fun p => (p 0, blmCostCrt p)) = some (0, 11) := by decide +kernel
  rw [e, Option.map_some, Option.some.injEq, Prod.mk.injEq] at hval
  obtain ⟨q0, qc⟩ := hval
  refine ⟨p, e, fun fuel djb => ?_⟩
  rcases crtInit_spec e with h | h
  · rw [h] at qc; exact absurd qc (by decide)
  · obtain ⟨m, s, em, _, hn⟩ := C40_returns_iff henv (fLen := 4) (gLen := 4) (by omega) le_rfl (p := p) (by omega) (by omega)
      (fun d h1 h2 => by rw [(C09_nodup_count d).2]; exact h.tab d h1 h2) djb
    apply hn
    have hm : m = 11 := by
      obtain ⟨s', e', _⟩ := blmMaps_spec (fn := 4) (gn := 4) (p := p) ⟨by omega, by omega, by omega, h.tab⟩
      rw [em] at e'
      cases e'
      exact qc
    subst hm
    intro hsp
    have := pairsSpan_card hsp
    have hcard : ((range 4 ×ˢ range 4).filter fun p : Nat × Nat => p.1 ≤ p.2).card = 10 := by decide
    omega

/-- **C40** (negation) in general: `blm_init_crt` does not return if the scheme needs more products than there are pairs `v ≤ w`, i.e.
`g_len + (g_len-1) + .. + (g_len-f_len+1)`. -/
theorem C40_violation_hang_count {fLen gLen : Nat} {p : Nat → Nat} (hc : ∑ v ∈ range fLen, (gLen - v) < blmCostCrt p) (ff : Option Gf2e)
    (fuel : Nat) (djb : Bool) : blmInitCrt? env fuel ff fLen gLen p djb = none := by
  cases h : blmInitCrt? env fuel ff fLen gLen p djb with
  | none => rfl
  | some f =>
    exfalso
    cases hm : blmMaps? fLen gLen p with
    | none => unfold blmInitCrt? at h; rw [hm] at h; cases h
    | some r =>
      obtain ⟨m, s⟩ := r
      have hmc : m = blmCostCrt p := by
        unfold blmMaps? at hm
        by_cases h16 : 16 < p 0
        · rw [if_pos h16] at hm; cases hm
        · rw [if_neg h16] at hm
          cases h1 : crtInfinity? fLen gLen p ⟨zeroW, zeroW, 0, fun _ => 0⟩ with
          | none => rw [h1] at hm; cases hm
          | some s1 =>
            rw [h1, Option.bind_some] at hm
            cases h2 : forNM (fun d s => crtDegree? fLen gLen p (d + 1) s) 16 s1 with
            | none => rw [h2] at hm; cases hm
            | some s2 => rw [h2, Option.map_some, Option.some.injEq, Prod.mk.injEq] at hm; exact hm.1.symm
      have hcard := pairsSpan_card (blmInit_span henv hm h)
      have : ((range fLen ×ˢ range gLen).filter fun p : Nat × Nat => p.1 ≤ p.2).card = ∑ v ∈ range fLen, (gLen - v) := by
        rw [Finset.card_filter, Finset.sum_product]
        refine Finset.sum_congr rfl fun v _ => ?_
        rw [← Finset.card_filter]
        have : (range gLen).filter (fun w => v ≤ w) = Finset.Ico v gLen := by
          ext w; simp only [Finset.mem_filter, mem_range, Finset.mem_Ico]; omega
        rw [this, Nat.card_Ico]
      omega

/-- **C40** (negation) `blm_init_crt` works in no case with `f_len > g_len`: the search only tries pairs `v ≤ w < g_len`, so the
leading coefficient of the first polynomial never occurs and the search never finds enough products (it leaves the matrix `G`
instead). -/
theorem C40_violation_longer_first {fLen gLen : Nat} (h1 : 1 ≤ gLen) (h2 : gLen < fLen) {p : Nat → Nat}
    (htab : ∀ d, 1 ≤ d → d ≤ 16 → p d ≤ (irredTable d).length)
    (hdeg : fLen + gLen - 1 ≤ p 0 + ∑ d ∈ range 16, (d + 1) * p (d + 1)) (fuel : Nat) (djb : Bool) :
    blmInitCrt? env fuel none fLen gLen p djb = none := by
  cases h : blmInitCrt? env fuel none fLen gLen p djb with
  | none => rfl
  | some f =>
    exfalso
    obtain ⟨hx, hm⟩ := C40_exact henv htab hdeg h
    obtain ⟨i1, i2, i3⟩ := blmInit_inf h
    have hs : SchemeOk fLen gLen p := ⟨i1, i2, i3, fun d hd1 hd2 => by rw [← (C09_nodup_count d).2]; exact htab d hd1 hd2⟩
    obtain ⟨s, em, _⟩ := blmMaps_spec hs
    have hsp := blmInit_span henv em h
    have hF : f.F.w = s.F ∧ f.G.w = s.G := by
      rw [blmInit_eq em] at h
      cases hb : blmFinish? env fuel none (blmCostCrt p) fLen gLen s.F s.G with
      | none => rw [hb] at h; cases h
      | some H =>
        rw [hb, Option.map_some, Option.some.injEq] at h
        subst h
        cases djb <;> exact ⟨rfl, rfl⟩
    have hprod := hx.2.2.2.2.2
    rw [hm, hF.1, hF.2] at hprod
    -- the row of `H` for the leading coefficient, as a linear form
    let φ : (Fin (blmCostCrt p) → ZMod 2) →ₗ[ZMod 2] ZMod 2 :=
      { toFun := fun x => ∑ k : Fin (blmCostCrt p), gf2Entry f.H.w (fLen + gLen - 2) k * x k
        map_add' := fun x y => by simp only [Pi.add_apply, mul_add, sum_add_distrib]
        map_smul' := fun c x => by
          simp only [Pi.smul_apply, smul_eq_mul, RingHom.id_apply, mul_sum]
          exact Finset.sum_congr rfl fun k _ => by ring }
    have hφ : ∀ v w, v < fLen → w < gLen → φ (pairVec (blmCostCrt p) s.F s.G v w) = if v + w = fLen + gLen - 2 then 1 else 0 := by
      intro v w hv hw
      rw [← hprod (fLen + gLen - 2) v w (by omega) hv hw]
      exact Fin.sum_univ_eq_sum_range (fun k => gf2Entry f.H.w (fLen + gLen - 2) k * (gf2Entry s.F k v * gf2Entry s.G k w)) _
    have hker : (⊤ : Submodule (ZMod 2) (Fin (blmCostCrt p) → ZMod 2)) ≤ LinearMap.ker φ := by
      rw [← show _ = ⊤ from hsp, Submodule.span_le]
      rintro x ⟨v, w, hvw, hv, hw, rfl⟩
      show φ _ = 0
      rw [hφ v w hv hw, if_neg (by omega)]
    have hone := hφ (fLen - 1) (gLen - 1) (by omega) (by omega)
    have hzero : φ (pairVec (blmCostCrt p) s.F s.G (fLen - 1) (gLen - 1)) = 0 := hker Submodule.mem_top
    rw [hzero, if_pos (by omega)] at hone
    exact absurd hone (by decide)

/-- **C40** (negation) the same for the schemes of `crt_init`: with `f_len > g_len` either the scheme is all-zero (and the map is
zero), or `blm_init_crt` does not return. -/
theorem C40_violation_crt_longer_first {fLen gLen : Nat} (h1 : 1 ≤ gLen) (h2 : gLen < fLen) {p : Nat → Nat} (hp : crtInit? fLen gLen = some p)
    {d : Nat} (hd : p d ≠ 0) (fuel : Nat) (djb : Bool) : blmInitCrt? env fuel none fLen gLen p djb = none := by
  rcases crtInit_spec hp with h0 | hg
  · rw [h0] at hd; exact absurd rfl hd
  · exact C40_violation_longer_first henv h1 h2 (fun d h1 h2 => by rw [(C09_nodup_count d).2]; exact hg.tab d h1 h2) (by
      have := hg.deg
      show _ ≤ schemeDegree p
      omega) fuel djb

/-- **C40, the whole picture for lengths up to 16** (the largest degree of a field this library supports): with the scheme of `crt_init`,
`blm_init_crt` returns an exact map when `f_len ≤ g_len` and (`f_len = 2`, `g_len ≤ 5`; or `f_len = 3`, `g_len ≤ 10`; or `f_len = 4`, `g_len ≥ 5`;
or `f_len ≥ 5`); for all other lengths from 1 to 16 no exact map is ever returned: the search of `_blm_finish_polymult` does not find a
basis, or the scheme is zero. -/
theorem C40_small {fLen gLen : Nat} (hf : 1 ≤ fLen) (hf' : fLen ≤ 16) (hg : 1 ≤ gLen) (hg' : gLen ≤ 16) (djb : Bool) :
    ∃ p, crtInit? fLen gLen = some p ∧
      if fLen ≤ gLen ∧ (fLen = 2 ∧ gLen ≤ 5 ∨ fLen = 3 ∧ gLen ≤ 10 ∨ fLen = 4 ∧ 5 ≤ gLen ∨ 5 ≤ fLen) then
        ∀ fuel, fLen * gLen ≤ fuel → ∃ f, blmInitCrt? env fuel none fLen gLen p djb = some f ∧ PolyExact fLen gLen f ∧ f.F.nrows < fLen * gLen
      else ∀ fuel f, blmInitCrt? env fuel none fLen gLen p djb = some f → ¬ PolyExact fLen gLen f := by
  obtain ⟨n, hn, hn3, hgood⟩ := smallOutcome_table hf hf' hg hg'
  unfold SmallGood at hgood
  obtain ⟨p, hp, hz, hnz⟩ := smallOutcome_spec hn
  refine ⟨p, hp, ?_⟩
  by_cases h0 : n = 0
  · have hp0 : p = fun _ => 0 := by
      rcases crtInit_spec hp with h | h
      · exact h
      · exfalso
        have hd := h.deg
        have : schemeDegree p = 0 := by
          have hsum : ∑ d ∈ range 16, (d + 1) * p (d + 1) = 0 :=
            Finset.sum_eq_zero fun d hd => by rw [hz h0 (d + 1) (by have := mem_range.1 hd; omega), Nat.mul_zero]
          show p 0 + ∑ d ∈ range 16, (d + 1) * p (d + 1) = 0
          rw [hsum, hz h0 0 (by omega)]
        omega
    rw [if_neg (fun h => by have := hgood.2 h; omega)]
    intro fuel f hb hx
    subst hp0
    have hs : SchemeOk fLen gLen (fun _ => 0) := ⟨by omega, by omega, by omega, fun _ _ _ => by omega⟩
    obtain ⟨s, e, _⟩ := blmMaps_spec hs
    have hc : blmCostCrt (fun _ => 0) = 0 := rfl
    rw [hc] at e
    rw [blmInit_eq e, Option.map_eq_some_iff] at hb
    obtain ⟨H, _, rfl⟩ := hb
    have hrows : (blmBuild env 0 fLen gLen s djb H).F.nrows = 0 := by unfold blmBuild; cases djb <;> rfl
    have := hx.2.2.2.2.2 0 0 0 (by omega) (by omega) (by omega)
    rw [hrows, range_zero, sum_empty, if_pos rfl] at this
    exact absurd this (by decide)
  · obtain ⟨⟨d, hd⟩, h⟩ := hnz h0
    have hG : GoodScheme fLen gLen p := by
      rcases crtInit_spec hp with h | h
      · rw [h] at hd; exact absurd rfl hd
      · exact h
    have htab : ∀ d, 1 ≤ d → d ≤ 16 → p d ≤ (irredTable d).length := fun d h1 h2 => by rw [(C09_nodup_count d).2]; exact hG.tab d h1 h2
    rcases h with ⟨hbad, h2⟩ | ⟨hfg, hpf, hspan⟩
    · rw [if_neg (fun h => by have := hgood.2 h; omega)]
      intro fuel f hb hx
      rcases hbad with hlt | hinf
      · rw [C40_violation_crt_longer_first henv hg (by omega) hp hd] at hb
        cases hb
      · exact hinf (blmInit_inf hb).2.1
    · have h16 : p 0 ≤ 16 := by have := hG.inf; omega
      have hs : SchemeOk fLen gLen p := ⟨h16, hpf, by omega, hG.tab⟩
      obtain ⟨m, s, e, hyes, hno⟩ := C40_returns_iff henv hf hfg hpf h16 htab djb
      obtain ⟨s', e', _⟩ := blmMaps_rows hs
      have : m = blmCostCrt p := by rw [e] at e'; cases e'; rfl
      subst this
      have hiff := hspan s e hs
      by_cases h1 : n = 1
      · rw [if_pos (hgood.1 h1)]
        intro fuel hfuel
        obtain ⟨f, hb⟩ := hyes (hiff.2 h1) fuel hfuel
        exact ⟨f, hb, C40_crt_exact henv hp hd hb⟩
      · rw [if_neg (fun h => h1 (hgood.2 h))]
        intro fuel f hb
        rw [hno (fun h => h1 (hiff.1 h)) fuel] at hb
        cases hb

omit henv in
/-- **C40** (negation) `crt_init` may choose the point at infinity with a multiplicity larger than the length of the shorter
polynomial, here `(x-∞)^4` for the lengths 3 and 24; then `_crt_modred_mat(3,0,4)` writes to column `-1`. -/
theorem C40_violation_infinity : ∃ p, crtInit? 3 24 = some p ∧ p 0 = 4 ∧ ∀ fuel ff djb, blmInitCrt? env fuel ff 3 24 p djb = none := by
  obtain ⟨p, e⟩ := crtInit_some (fLen := 3) (gLen := 24) (by omega)
  have hval : (crtInit? 3 24).map (fun p => p 0) = some 4 := by decide +kernel
  rw [e, Option.map_some, Option.some.injEq] at hval
  refine ⟨p, e, hval, fun fuel ff djb => ?_⟩
  cases h : blmInitCrt? env fuel ff 3 24 p djb with
  | none => rfl
  | some f => have := (blmInit_inf h).2.1; omega

end

/-- instance of `C40_small`: lengths 5 and 8 work, lengths 2 and 6 do not -/
example : (∃ p f, crtInit? 5 8 = some p ∧ blmInitCrt? stdBlmEnv 40 none 5 8 p false = some f ∧ PolyExact 5 8 f) ∧
    ∃ p, crtInit? 2 6 = some p ∧ ∀ fuel f, blmInitCrt? stdBlmEnv fuel none 2 6 p false = some f → ¬ PolyExact 2 6 f := by
  constructor
  · obtain ⟨p, e, h⟩ := C40_small stdBlmEnv_ok (fLen := 5) (gLen := 8) (by omega) (by omega) (by omega) (by omega) false
    rw [if_pos (by omega)] at h
    obtain ⟨f, h1, h2, _⟩ := h 40 (by omega)
    exact ⟨p, f, e, h1, h2⟩
  · obtain ⟨p, e, h⟩ := C40_small stdBlmEnv_ok (fLen := 2) (gLen := 6) (by omega) (by omega) (by omega) (by omega) false
    rw [if_neg (by omega)] at h
    exact ⟨p, e, h⟩

/-- the three failures occur: lengths (3,2) and (4,4), and (2,2) works (`C40_instance`) -/
example : (∃ p, crtInit? 3 2 = some p ∧ p 1 = 2 ∧ ∀ fuel, blmInitCrt? stdBlmEnv fuel none 3 2 p true = none) ∧
    ∃ p, crtInit? 4 4 = some p ∧ ∑ v ∈ range 4, (4 - v) < blmCostCrt p := by
  constructor
  · obtain ⟨p, e⟩ := crtInit_some (fLen := 3) (gLen := 2) (by omega)
    have hval : (crtInit? 3 2).map (fun p => p 1) = some 2 := by decide +kernel
    rw [e, Option.map_some, Option.some.injEq] at hval
    exact ⟨p, e, hval, fun fuel => C40_violation_crt_longer_first stdBlmEnv_ok (by omega) (by omega) e (d := 1) (by omega) fuel true⟩
  · obtain ⟨p, e⟩ := crtInit_some (fLen := 4) (gLen := 4) (by omega)
    have hval : (crtInit? 4 4).map (fun p => blmCostCrt p) = some 11 := by decide +kernel
    rw [e, Option.map_some, Option.some.injEq] at hval
    exact ⟨p, e, by rw [hval]; decide⟩

/-- two polynomials of length 2: `crt_init` finds Karatsuba's scheme (3 products) and `blm_init_crt` returns an exact map -/
theorem C40_instance : ∃ p f, crtInit? 2 2 = some p ∧ p 0 = 1 ∧ p 1 = 2 ∧ blmInitCrt? stdBlmEnv 4 none 2 2 p true = some f ∧
    PolyExact 2 2 f ∧ f.F.nrows = 3 := by
  obtain ⟨p, e⟩ := crtInit_some (fLen := 2) (gLen := 2) (by omega)
  have hval : (crtInit? 2 2).map (fun p => ((p 0, p 1), blmCostCrt p)) = some ((1, 2), 3) := by decide +kernel
  rw [e, Option.map_some, Option.some.injEq, Prod.mk.injEq, Prod.mk.injEq] at hval
  obtain ⟨⟨q0, q1⟩, qc⟩ := hval
  rcases crtInit_spec e with h | h
  · rw [h] at qc; exact absurd qc (by decide)
  · have hs : SchemeOk 2 2 p := ⟨by omega, by omega, by omega, h.tab⟩
    obtain ⟨s, es, hr, hk⟩ := blmMaps_spec hs
    rw [qc] at es hr
    have hsp : PairsSpan 3 2 2 s.F s.G := pairsSpan_minimal (fn := 2) (gn := 2) (by omega) le_rfl fun l hl =>
      blmMaps_kills hs h.deg hk (by rw [hr]; exact hl)
    obtain ⟨f, ef⟩ := blmInit_some stdBlmEnv_ok (fuel := 4) (fn := 2) (gn := 2) (by omega) le_rfl (s := s) (p := p) (by rw [qc]; exact es)
      (by rw [qc]; exact hsp) (by omega) (ff := none) (fun f hf => by cases hf) true
    obtain ⟨x1, x2⟩ := C40_exact stdBlmEnv_ok (fun d h1 h2 => by rw [(C09_nodup_count d).2]; exact h.tab d h1 h2) (by
      have := h.deg
      show _ ≤ schemeDegree p
      omega) ef
    exact ⟨p, f, e, q0, q1, ef, x1, by rw [x2, qc]⟩

/-! ### C54 -/

section
variable {ff : Gf2e} [IsField ff] {env : BlmEnv} (henv : BlmEnvOk env) {fuel : Nat} (hfuel : ff.degree * ff.degree ≤ fuel)
include henv hfuel

section
variable {A B C : Slice} {MA MB MC : Nat → Nat → Elem ff} (hA : SRep A MA) (hB : SRep B MB) (hC : SRep C MC) (h : SFits C A B)
include hA hB hC h

/-- **C54** `mzd_slice_mul_blm(C,A,B,NULL)` gives `A*B`, whatever `C` contained. -/
theorem C54_slice_mul : ∃ R, mzdSliceMulBlm? env fuel C A B none = some R ∧ SHoldsProduct R C A.ncols MC MA MB := by
  have := sliceMulBlm_spack henv hfuel (⟨C.nrows, C.ncols, C.fid, MC⟩ : Mat ff) ⟨A.nrows, A.ncols, A.fid, MA⟩ ⟨B.nrows, B.ncols, B.fid, MB⟩
    h.rows h.cols h.inner h.field h.fieldC
  rw [← hC.eq_spack', ← hA.eq_spack', ← hB.eq_spack'] at this
  exact ⟨_, this, ⟨rfl, rfl, rfl⟩, spack_rep _⟩

/-- **C54** `mzd_slice_addmul_blm(C,A,B,NULL)` gives `C + A*B`. -/
theorem C54_slice_addmul : ∃ R, mzdSliceAddmulBlm? env fuel C A B none = some R ∧ SHoldsSumProduct R C A.ncols MC MA MB := by
  have := sliceAddmulBlm_spack henv hfuel (⟨C.nrows, C.ncols, C.fid, MC⟩ : Mat ff) ⟨A.nrows, A.ncols, A.fid, MA⟩ ⟨B.nrows, B.ncols, B.fid, MB⟩
    h.rows h.cols h.inner h.field h.fieldC
  rw [← hC.eq_spack', ← hA.eq_spack', ← hB.eq_spack'] at this
  exact ⟨_, this, ⟨rfl, rfl, rfl⟩, spack_rep _⟩

end

variable {A B C : Mzed} {MA MB MC : Nat → Nat → Elem ff} (hA : Rep A MA) (hB : Rep B MB) (hC : Rep C MC) (hfit : Fits C A B)
include hA hB hC hfit

/-- **C54** `mzed_mul_blm(C,A,B)` gives `A*B` and `mzed_addmul_blm(C,A,B)` gives `C + A*B`. -/
theorem C54_mul : (∃ R, mzedMulBlm? env fuel C A B = some R ∧ HoldsProduct R C A.ncols MC MA MB) ∧
    (∃ R, mzedAddmulBlm? env fuel C A B = some R ∧ HoldsSumProduct R C A.ncols MC MA MB) := by
  have h1 := addmulBlmRaw_pack henv hfuel ((⟨C.nrows, C.ncols, C.fid, MC⟩ : Mat ff).scalar 0) ⟨A.nrows, A.ncols, A.fid, MA⟩ ⟨B.nrows, B.ncols, B.fid, MB⟩
    hfit.rows hfit.cols hfit.inner hfit.fieldC
  have h2 := addmulBlmRaw_pack henv hfuel (⟨C.nrows, C.ncols, C.fid, MC⟩ : Mat ff) ⟨A.nrows, A.ncols, A.fid, MA⟩ ⟨B.nrows, B.ncols, B.fid, MB⟩
    hfit.rows hfit.cols hfit.inner hfit.fieldC
  have hs := setUi_pack (⟨C.nrows, C.ncols, C.fid, MC⟩ : Mat ff) 0
  have hz : (0 : Elem ff).1 = 0#64 := rfl
  rw [hz] at hs
  rw [← hs, scalar_addMulM] at h1
  rw [← hC.eq_pack', ← hA.eq_pack', ← hB.eq_pack'] at h1 h2
  have c1 : ¬ (A.ncols ≠ B.nrows ∨ A.fid ≠ B.fid) := by have := hfit.inner; have := hfit.field; tauto
  have c2 : ¬ (C.fid ≠ A.fid ∨ C.nrows ≠ A.nrows ∨ C.ncols ≠ B.ncols) := by
    have := hfit.fieldC; have := hfit.rows; have := hfit.cols; tauto
  constructor
  · have e : mzedMulBlm? env fuel C A B = mzedAddmulBlmRaw? env fuel (mzedSetUi C 0#64) A B := by
      unfold mzedMulBlm?
      rw [if_neg c1, if_neg c2]
    exact ⟨_, e.trans h1, ⟨rfl, rfl, rfl⟩, pack_rep _⟩
  · have e : mzedAddmulBlm? env fuel C A B = mzedAddmulBlmRaw? env fuel C A B := by
      unfold mzedAddmulBlm?
      rw [if_neg c1, if_neg c2]
    exact ⟨_, e.trans h2, ⟨rfl, rfl, rfl⟩, pack_rep _⟩

end

section
variable {ff : Gf2e} [IsField ff] {env : BlmEnv} (henv : BlmEnvOk env)
include henv

/-- **C54** with a user supplied map: every map returned by `blm_init_crt(ff,d,d,p,djb)` for a scheme with distinct moduli that
determines `2d-1` coefficients gives the product as well. -/
theorem C54_slice_mul_map {fuel fuel' : Nat} {p : Nat → Nat} (htab : ∀ d, 1 ≤ d → d ≤ 16 → p d ≤ (irredTable d).length)
    (hdeg : 2 * ff.degree - 1 ≤ p 0 + ∑ d ∈ range 16, (d + 1) * p (d + 1)) {djb : Bool} {f : Blm}
    (hf : blmInitCrt? env fuel (some ff) ff.degree ff.degree p djb = some f)
    {A B C : Slice} {MA MB MC : Nat → Nat → Elem ff} (hA : SRep A MA) (hB : SRep B MB) (hC : SRep C MC) (h : SFits C A B) :
    ∃ R, mzdSliceMulBlm? env fuel' C A B (some f) = some R ∧ SHoldsProduct R C A.ncols MC MA MB := by
  obtain ⟨h1, h2, h3⟩ := blmInit_inf hf
  have hs : SchemeOk ff.degree ff.degree p := ⟨h1, h2, h3, fun d hd1 hd2 => by rw [← (C09_nodup_count d).2]; exact htab d hd1 hd2⟩
  obtain ⟨x1, x2, _⟩ := blmInit_exact henv hs (by
    have : 2 * ff.degree - 1 ≤ schemeDegree p := hdeg
    omega) (ff := some ff) (by rintro g ⟨⟩; exact (Fact.out : FFOK ff).min) hf
  have := sliceMulBlm_map env fuel' x1 x2 (⟨C.nrows, C.ncols, C.fid, MC⟩ : Mat ff) ⟨A.nrows, A.ncols, A.fid, MA⟩ ⟨B.nrows, B.ncols, B.fid, MB⟩
    h.rows h.cols h.inner h.field h.fieldC
  rw [← hC.eq_spack', ← hA.eq_spack', ← hB.eq_spack'] at this
  exact ⟨_, this, ⟨rfl, rfl, rfl⟩, spack_rep _⟩

/-- **C54** ... and `mzd_slice_addmul_blm(C,A,B,f)` gives `C + A*B` with every such map. -/
theorem C54_slice_addmul_map {fuel fuel' : Nat} {p : Nat → Nat} (htab : ∀ d, 1 ≤ d → d ≤ 16 → p d ≤ (irredTable d).length)
    (hdeg : 2 * ff.degree - 1 ≤ p 0 + ∑ d ∈ range 16, (d + 1) * p (d + 1)) {djb : Bool} {f : Blm}
    (hf : blmInitCrt? env fuel (some ff) ff.degree ff.degree p djb = some f)
    {A B C : Slice} {MA MB MC : Nat → Nat → Elem ff} (hA : SRep A MA) (hB : SRep B MB) (hC : SRep C MC) (h : SFits C A B) :
    ∃ R, mzdSliceAddmulBlm? env fuel' C A B (some f) = some R ∧ SHoldsSumProduct R C A.ncols MC MA MB := by
  have hT := spack_rep (⟨A.nrows, B.ncols, A.fid, fun _ _ => 0⟩ : Mat ff)
  have hF : SFits (Mat.spack (⟨A.nrows, B.ncols, A.fid, fun _ _ => 0⟩ : Mat ff)) A B :=
    { inner := h.inner, field := h.field, fieldC := rfl, rows := rfl, cols := rfl }
  have hm : ∃ R, mzdSliceMulBlm? env fuel' (Mat.spack (⟨A.nrows, B.ncols, A.fid, fun _ _ => 0⟩ : Mat ff)) A B (some f) = some R ∧
      SHoldsProduct R (Mat.spack (⟨A.nrows, B.ncols, A.fid, fun _ _ => 0⟩ : Mat ff)) A.ncols (fun _ _ => 0) MA MB :=
    C54_slice_mul_map (fuel' := fuel') henv htab hdeg hf hA hB hT hF
  have c1 : ¬ (A.ncols ≠ B.nrows ∨ A.fid ≠ B.fid) := fun x => x.elim (· h.inner) (· h.field)
  have c2 : ¬ (C.fid ≠ A.fid ∨ C.nrows ≠ A.nrows ∨ C.ncols ≠ B.ncols) := fun x => x.elim (· h.fieldC) (·.elim (· h.rows) (· h.cols))
  have hz : mzdSliceSetUi (Mat.spack (⟨A.nrows, B.ncols, A.fid, fun _ _ => 0⟩ : Mat ff)) 0#64 = mzdSliceInit A.ff A.fid A.nrows B.ncols := by
    rw [hA.ffEq, sliceInit_spack, show (0#64 : Word) = (0 : Elem ff).1 from rfl, sliceSetUi_spack]
    refine congrArg (fun X : Mat ff => X.spack) (Mat.ext rfl rfl rfl ?_)
    funext i j
    show (if i < A.nrows ∧ j < B.ncols then (if i = j then (0 : Elem ff) else 0) else 0) = 0
    simp
  obtain ⟨S, hS⟩ : ∃ S, S = Mat.spack (⟨A.nrows, B.ncols, A.fid, fun _ _ => 0⟩ : Mat ff) := ⟨_, rfl⟩
  rw [← hS] at hm hz hF
  obtain ⟨R, e, hd, hR⟩ := hm
  have e' : mzdSliceMulBlmRaw? env fuel' (mzdSliceInit A.ff A.fid A.nrows B.ncols) A B (some f) = some R := by
    unfold mzdSliceMulBlm? at e
    rw [if_neg c1, if_neg (show ¬ (S.fid ≠ A.fid ∨ S.nrows ≠ A.nrows ∨ S.ncols ≠ B.ncols) from fun x => x.elim (· hF.fieldC) (·.elim (· hF.rows) (· hF.cols))), hz] at e
    exact e
  obtain ⟨d1, d2, d3⟩ := hd
  have hr := h.rows
  have hc := h.cols
  have hf' := h.fieldC
  rw [hF.rows] at d1
  rw [hF.cols] at d2
  rw [hF.fieldC] at d3
  rw [hF.rows, hF.cols] at hR
  have ea := sliceAdd_spack (⟨C.nrows, C.ncols, C.fid, MC⟩ : Mat ff) ⟨C.nrows, C.ncols, C.fid, MC⟩
    ⟨R.nrows, R.ncols, R.fid, fun i j => if i < A.nrows ∧ j < B.ncols then ∑ t ∈ Finset.range A.ncols, MA i t * MB t j else 0⟩ (hf'.trans d3.symm) (hr.trans d1.symm) (hc.trans d2.symm) rfl rfl rfl
  rw [← hC.eq_spack', ← hR.eq_spack'] at ea
  unfold mzdSliceAddmulBlm?
  rw [if_neg c1, if_neg c2, e', Option.bind_some, ea]
  refine ⟨_, rfl, ⟨rfl, rfl, rfl⟩, ?_⟩
  refine (congrArg (fun X : Mat ff => SRep X.spack _) ?_).mpr (spack_rep ⟨C.nrows, C.ncols, C.fid, _⟩)
  refine Mat.ext rfl rfl rfl ?_
  funext i j
  show (if i < C.nrows ∧ j < C.ncols then MC i j + (if i < A.nrows ∧ j < B.ncols then ∑ t ∈ Finset.range A.ncols, MA i t * MB t j else 0) else MC i j) =
    (if i < C.nrows ∧ j < C.ncols then MC i j + ∑ t ∈ Finset.range A.ncols, MA i t * MB t j else MC i j)
  by_cases hij : i < C.nrows ∧ j < C.ncols
  · rw [if_pos hij, if_pos hij, if_pos (by omega)]
  · rw [if_neg hij, if_neg hij]

end

/-- **C54** operands that do not fit die, sliced as well, whatever the map. -/
theorem C54_slice_dies {env : BlmEnv} {fuel : Nat} {A B C : Slice} {f : Option Blm} (h : ¬ SFits C A B) :
    mzdSliceMulBlm? env fuel C A B f = none ∧ mzdSliceAddmulBlm? env fuel C A B f = none := by
  unfold mzdSliceMulBlm? mzdSliceAddmulBlm?
  by_cases h1 : A.ncols ≠ B.nrows ∨ A.fid ≠ B.fid
  · rw [if_pos h1, if_pos h1]; exact ⟨rfl, rfl⟩
  · rw [if_neg h1, if_neg h1]
    by_cases h2 : C.fid ≠ A.fid ∨ C.nrows ≠ A.nrows ∨ C.ncols ≠ B.ncols
    · rw [if_pos h2, if_pos h2]; exact ⟨rfl, rfl⟩
    · push Not at h1 h2
      exact absurd ⟨h1.1, h1.2, h2.1, h2.2.1, h2.2.2⟩ h

/-- **C54** operands that do not fit die. -/
theorem C54_dies {env : BlmEnv} {fuel : Nat} {A B C : Mzed} (h : ¬ Fits C A B) :
    mzedMulBlm? env fuel C A B = none ∧ mzedAddmulBlm? env fuel C A B = none := by
  unfold mzedMulBlm? mzedAddmulBlm?
  by_cases h1 : A.ncols ≠ B.nrows ∨ A.fid ≠ B.fid
  · rw [if_pos h1, if_pos h1]; exact ⟨rfl, rfl⟩
  · rw [if_neg h1, if_neg h1]
    by_cases h2 : C.fid ≠ A.fid ∨ C.nrows ≠ A.nrows ∨ C.ncols ≠ B.ncols
    · rw [if_pos h2, if_pos h2]; exact ⟨rfl, rfl⟩
    · push Not at h1 h2
      exact absurd ⟨h1.1, h1.2, h2.1, h2.2.1, h2.2.2⟩ h

-- 70x65 times 65x3 over GF(2^8)
example : ∃ ff, ∃ _ : IsField ff, ff.degree = 8 ∧ BlmEnvOk stdBlmEnv ∧ ff.degree * ff.degree ≤ 64 ∧ ∃ (A B C : Slice) (MA MB MC : Nat → Nat → Elem ff),
    SRep A MA ∧ SRep B MB ∧ SRep C MC ∧ SFits C A B ∧ A.nrows = 70 ∧ A.ncols = 65 ∧ MA 3 4 = 1 ∧ MC 5 5 = 1 := by
  obtain ⟨ff, h, hd⟩ := exists_aes
  refine ⟨ff, h, hd, stdBlmEnv_ok, by rw [hd], Mat.spack (ff := ff) ⟨70, 65, 0, fun _ _ => 1⟩,
    Mat.spack (ff := ff) ⟨65, 3, 0, fun i j => if i = j then 1 else 0⟩,
    Mat.spack (ff := ff) ⟨70, 3, 0, fun i _ => if i = 5 then 1 else 0⟩, _, _, _, spack_rep _, spack_rep _, spack_rep _, ?_, rfl, rfl, ?_, ?_⟩
  · exact ⟨rfl, rfl, rfl, rfl, rfl⟩
  · simp
  · simp

-- `C54_slice_mul_map`, `C54_slice_addmul_map`: over GF(4) with the scheme of `crt_init` (the points 0, 1 and infinity: Karatsuba)
example : ∃ ff, ∃ _ : IsField ff, ∃ (p : Nat → Nat) (f : Blm), crtInit? 2 2 = some p ∧ p 0 = 1 ∧ p 1 = 2 ∧
    (∀ d, 1 ≤ d → d ≤ 16 → p d ≤ (irredTable d).length) ∧ 2 * ff.degree - 1 ≤ p 0 + ∑ d ∈ range 16, (d + 1) * p (d + 1) ∧
    blmInitCrt? stdBlmEnv 4 (some ff) ff.degree ff.degree p true = some f ∧ ∃ (A B C : Slice) (MA MB MC : Nat → Nat → Elem ff),
    SRep A MA ∧ SRep B MB ∧ SRep C MC ∧ SFits C A B ∧ A.nrows = 70 ∧ A.ncols = 65 ∧ MA 3 4 = 1 ∧ MC 5 5 = 1 := by
  obtain ⟨ff, g1, g2, -⟩ := C05_red_table 7#64 (supported_of_deg (by decide) (by decide))
  have hirr : Irreducible (toPoly (7#64)) := (C09_irreducible 2 7 (by decide)).2
  have hF : IsField ff := isField_of_init (by decide) (by decide) hirr g1
  have hd : ff.degree = 2 := by rw [g2, ← gf2xDeg_natDegree]; decide
  obtain ⟨p, e⟩ := crtInit_some (fLen := 2) (gLen := 2) (by omega)
  have hval : (crtInit? 2 2).map (fun p => ((p 0, p 1), blmCostCrt p)) = some ((1, 2), 3) := by decide +kernel
  rw [e, Option.map_some, Option.some.injEq, Prod.mk.injEq, Prod.mk.injEq] at hval
  obtain ⟨⟨q0, q1⟩, qc⟩ := hval
  rcases crtInit_spec e with h | h
  · rw [h] at qc; exact absurd qc (by decide)
  · have hs : SchemeOk 2 2 p := ⟨by omega, by omega, by omega, h.tab⟩
    obtain ⟨s, es, hr, hk⟩ := blmMaps_spec hs
    rw [qc] at es hr
    have hsp : PairsSpan 3 2 2 s.F s.G := pairsSpan_minimal (fn := 2) (gn := 2) (by omega) le_rfl fun l hl =>
      blmMaps_kills hs h.deg hk (by rw [hr]; exact hl)
    obtain ⟨f, ef⟩ := blmInit_some stdBlmEnv_ok (fuel := 4) (fn := 2) (gn := 2) (by omega) le_rfl (s := s) (p := p) (by rw [qc]; exact es)
      (by rw [qc]; exact hsp) (by omega) (ff := some ff) (by rintro g ⟨⟩; exact (Fact.out : FFOK ff).min) true
    refine ⟨ff, hF, p, f, e, q0, q1, fun d h1 h2 => by rw [(C09_nodup_count d).2]; exact h.tab d h1 h2, ?_, by rw [hd]; exact ef,
      Mat.spack (ff := ff) ⟨70, 65, 0, fun _ _ => 1⟩, Mat.spack (ff := ff) ⟨65, 3, 0, fun i j => if i = j then 1 else 0⟩,
      Mat.spack (ff := ff) ⟨70, 3, 0, fun i _ => if i = 5 then 1 else 0⟩, _, _, _, spack_rep _, spack_rep _, spack_rep _,
      ⟨rfl, rfl, rfl, rfl, rfl⟩, rfl, rfl, ?_, ?_⟩
    · have := h.deg
      rw [hd]
      show _ ≤ schemeDegree p
      omega
    · simp
    · simp

end M4rie.Props
