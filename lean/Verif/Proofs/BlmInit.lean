import Verif.Proofs.BlmFinish
import Verif.Proofs.BlmApply

/-! `blm_init_crt`: exactness and termination. -/

namespace M4rie
open Polynomial Spec Finset

/-- the bilinear map sends the pair `(v,w)` to `val (v+w)` -/
def BlmExact (nr : Nat) (val : Nat → Nat → ZMod 2) (fn gn : Nat) (f : Blm) : Prop :=
  f.H.nrows = nr ∧ f.H.ncols = f.F.nrows ∧ f.F.nrows = f.G.nrows ∧ f.F.ncols = fn ∧ f.G.ncols = gn ∧
  ∀ i v w, i < nr → v < fn → w < gn →
    ∑ k ∈ range f.F.nrows, gf2Entry f.H.w i k * (gf2Entry f.F.w k v * gf2Entry f.G.w k w) = val (v + w) i

/-- the compiled programs belong to the matrices -/
def DjbOk (f : Blm) : Prop := ∀ pf pg ph, f.djb = some (pf, pg, ph) →
  DjbComputes f.F.nrows f.F.ncols f.F.w pf ∧ DjbComputes f.G.nrows f.G.ncols f.G.w pg ∧ DjbComputes f.H.nrows f.H.ncols f.H.w ph

theorem mulMat_entry (r k n : Nat) (C A B : Nat → Nat → Word) {i p : Nat} (h : i < r ∧ p < n) :
    gf2Entry (mzdMul r k n C A B) i p = ∑ l ∈ range k, gf2Entry A i l * gf2Entry B l p := by
  show gf2 (bitAt _ i p) = _
  rw [mzdMul_bits _ _ _ _ _ _ h, ← gf2Hom_apply, map_sum]
  exact Finset.sum_congr rfl fun l _ => map_mul gf2Hom _ _

/-- the matrix `C` recomputed after the search -/
def finC (m fn gn : Nat) (F G : Nat → Nat → Word) (s : FinState) : Nat → Nat → Word :=
  forN (fun r C => finRow ((m + 63) / 64) (mzdTranspose m fn F) (mzdTranspose m gn G) (s.piv r).1 (s.piv r).2 r C) m s.C

theorem blmFinish_eq (env : BlmEnv) (fuel m fn gn : Nat) (F G : Nat → Nat → Word) :
    blmFinish? env fuel none m fn gn F G =
      (finLoop env m fn gn (mzdTranspose m fn F) (mzdTranspose m gn G) fuel ⟨zeroW, fun _ => (0, 0), 0, 0, 0, 0⟩).bind fun s =>
        some ⟨fn + gn - 1, m, finH m (fn + gn - 1) s.piv (mzdTranspose m m (env.inv m (finC m fn gn F G s)))⟩ := rfl

theorem blmFinish_eq' (env : BlmEnv) (fuel m fn gn : Nat) (F G : Nat → Nat → Word) (ff : Gf2e) :
    blmFinish? env fuel (some ff) m fn gn F G =
      (finLoop env m fn gn (mzdTranspose m fn F) (mzdTranspose m gn G) fuel ⟨zeroW, fun _ => (0, 0), 0, 0, 0, 0⟩).bind fun s =>
        (crtModredMat? (fn + gn - 1) ff.minpoly ff.degree).map fun N => ⟨ff.degree, m, mzdMul ff.degree (fn + gn - 1) m zeroW N
          (finH m (fn + gn - 1) s.piv (mzdTranspose m m (env.inv m (finC m fn gn F G s))))⟩ := rfl

theorem blmFinish_none {env : BlmEnv} (henv : BlmEnvOk env) {fuel m fn gn : Nat} {F G : Nat → Nat → Word}
    (hk : ∀ l, Kills m fn gn F G l → prodPoly fn gn l = 0) {H : Mzd} (h : blmFinish? env fuel none m fn gn F G = some H) :
    H.nrows = fn + gn - 1 ∧ H.ncols = m ∧ ∀ i v w, i < fn + gn - 1 → v < fn → w < gn →
      ∑ k ∈ range m, gf2Entry H.w i k * (gf2Entry F k v * gf2Entry G k w) = if v + w = i then 1 else 0 := by
  rw [blmFinish_eq] at h
  cases hl : finLoop env m fn gn (mzdTranspose m fn F) (mzdTranspose m gn G) fuel ⟨zeroW, fun _ => (0, 0), 0, 0, 0, 0⟩ with
  | none => rw [hl] at h; cases h
  | some s =>
    rw [hl, Option.bind_some] at h
    obtain ⟨hs, hfull⟩ := finLoop_inv henv fuel (finInv_init henv) hl
    cases h
    exact ⟨rfl, rfl, fun i v w hi hv hw => finH_exact henv hs hfull hk hi hv hw⟩

theorem blmFinish_some {env : BlmEnv} {fuel m fn gn : Nat} {F G : Nat → Nat → Word} (ff : Gf2e) :
    blmFinish? env fuel (some ff) m fn gn F G = (blmFinish? env fuel none m fn gn F G).bind fun H =>
      (crtModredMat? (fn + gn - 1) ff.minpoly ff.degree).map fun N => ⟨ff.degree, m, mzdMul ff.degree (fn + gn - 1) m zeroW N H.w⟩ := by
  rw [blmFinish_eq, blmFinish_eq']
  cases finLoop env m fn gn (mzdTranspose m fn F) (mzdTranspose m gn G) fuel ⟨zeroW, fun _ => (0, 0), 0, 0, 0, 0⟩ <;> rfl

/-- the values with and without a modulus -/
noncomputable def blmVal : Option Gf2e → Nat → Nat → ZMod 2
  | none, t, i => if t = i then 1 else 0
  | some ff, t, i => (X ^ t % toPoly ff.minpoly : (ZMod 2)[X]).coeff i

/-- the number of rows of `H` -/
def blmRows (fn gn : Nat) : Option Gf2e → Nat
  | none => fn + gn - 1
  | some ff => ff.degree

theorem blmFinish_exact {env : BlmEnv} (henv : BlmEnvOk env) {fuel m fn gn : Nat} {F G : Nat → Nat → Word}
    (hk : ∀ l, Kills m fn gn F G l → prodPoly fn gn l = 0) {ff : Option Gf2e} (hff : ∀ f, ff = some f → MinOK f.minpoly f.degree) {H : Mzd}
    (h : blmFinish? env fuel ff m fn gn F G = some H) :
    H.nrows = blmRows fn gn ff ∧ H.ncols = m ∧ ∀ i v w, i < blmRows fn gn ff → v < fn → w < gn →
      ∑ k ∈ range m, gf2Entry H.w i k * (gf2Entry F k v * gf2Entry G k w) = blmVal ff (v + w) i := by
  match ff, hff, h with
  | none, _, h => exact blmFinish_none henv hk h
  | some ff, hff, h =>
    rw [blmFinish_some] at h
    cases h0 : blmFinish? env fuel none m fn gn F G with
    | none => rw [h0] at h; cases h
    | some H0 =>
      obtain ⟨h1, h2, h3⟩ := blmFinish_none henv hk h0
      obtain ⟨N, eN, hN⟩ := crtModredMat_spec (hff ff rfl) (fn + gn - 1)
      rw [h0, Option.bind_some, eN] at h
      cases h
      refine ⟨rfl, rfl, fun i v w hi hv hw => ?_⟩
      have e : ∀ k ∈ range m, gf2Entry (mzdMul ff.degree (fn + gn - 1) m zeroW N H0.w) i k * (gf2Entry F k v * gf2Entry G k w) =
          ∑ l ∈ range (fn + gn - 1), gf2Entry N i l * (gf2Entry H0.w l k * (gf2Entry F k v * gf2Entry G k w)) := by
        intro k hk
        rw [mulMat_entry ff.degree _ _ _ _ _ ⟨hi, mem_range.1 hk⟩, sum_mul]
        exact Finset.sum_congr rfl fun l _ => mul_assoc _ _ _
      show ∑ k ∈ range m, gf2Entry (mzdMul ff.degree (fn + gn - 1) m zeroW N H0.w) i k * (gf2Entry F k v * gf2Entry G k w) = _
      rw [Finset.sum_congr rfl e, sum_comm]
      simp only [← mul_sum]
      rw [Finset.sum_congr rfl fun l hl => by rw [h3 l v w (mem_range.1 hl) hv hw], sum_eq_single (v + w)]
      · rw [if_pos rfl, mul_one, hN, if_pos (by omega)]; rfl
      · intro l _ hl; rw [if_neg (Ne.symm hl), mul_zero]
      · intro hh; rw [mem_range] at hh; omega

theorem mzdEq_entry {nr nc : Nat} {A B : Nat → Nat → Word} (h : mzdEq nr nc A B = true) {i p : Nat} (hi : i < nr) (hp : p < nc) :
    bitAt A i p = bitAt B i p := by
  unfold mzdEq at h
  simp only [List.all_eq_true, List.mem_range, beq_iff_eq] at h
  exact h i hi p hp

theorem xorRange_congr {f g : Nat → Bool} {n : Nat} (h : ∀ i, i < n → f i = g i) : xorRange f n = xorRange g n := by
  rw [xorRange_sum, xorRange_sum]
  exact Finset.sum_congr rfl fun i hi => h i (mem_range.1 hi)

theorem djbComputes_congr {nr nc : Nat} {F G : Nat → Nat → Word} {prog : List DjbOp} (h : DjbComputes nr nc F prog)
    (he : ∀ i p, i < nr → p < nc → bitAt F i p = bitAt G i p) : DjbComputes nr nc G prog :=
  ⟨h.target, h.source, h.written, fun V t ht => by
    rw [h.eval V t ht]
    exact xorRange_congr fun j hj => by rw [he t j ht hj]⟩

theorem djbCompile_ok {env : BlmEnv} (henv : BlmEnvOk env) (f : Blm) : DjbOk (blmDjbCompile env f) := by
  intro pf pg ph h
  unfold blmDjbCompile at h
  simp only [Option.some.injEq, Prod.mk.injEq] at h
  obtain ⟨rfl, rfl, rfl⟩ := h
  refine ⟨henv.djb _ _ _, ?_, henv.djb _ _ _⟩
  show DjbComputes f.G.nrows f.G.ncols f.G.w _
  by_cases hc : f.F.nrows = f.G.nrows ∧ f.F.ncols = f.G.ncols ∧ mzdEq f.F.nrows f.F.ncols f.F.w f.G.w = true
  · rw [if_pos hc, ← hc.1, ← hc.2.1]
    exact djbComputes_congr (henv.djb _ _ _) fun i p hi hp => mzdEq_entry hc.2.2 hi hp
  · rw [if_neg hc]; exact henv.djb _ _ _

/-- one equation of `blm_init_crt` -/
def blmBuild (env : BlmEnv) (m fn gn : Nat) (s : CrtState) (djb : Bool) (H : Mzd) : Blm :=
  if djb then blmDjbCompile env ⟨H, ⟨m, fn, s.F⟩, ⟨m, gn, s.G⟩, none⟩ else ⟨H, ⟨m, fn, s.F⟩, ⟨m, gn, s.G⟩, none⟩

theorem blmInit_eq {env : BlmEnv} {fuel fn gn m : Nat} {p : Nat → Nat} {s : CrtState} (e : blmMaps? fn gn p = some (m, s)) (ff : Option Gf2e) (djb : Bool) :
    blmInitCrt? env fuel ff fn gn p djb = (blmFinish? env fuel ff m fn gn s.F s.G).map (blmBuild env m fn gn s djb) := by
  unfold blmInitCrt?
  rw [e, Option.bind_some]
  rfl

theorem blmInit_exact' {env : BlmEnv} (henv : BlmEnvOk env) {fuel fn gn m : Nat} {p : Nat → Nat} {s : CrtState}
    (e : blmMaps? fn gn p = some (m, s)) (hk : ∀ l, Kills m fn gn s.F s.G l → prodPoly fn gn l = 0)
    {ff : Option Gf2e} (hff : ∀ f, ff = some f → MinOK f.minpoly f.degree) {djb : Bool} {f : Blm}
    (h : blmInitCrt? env fuel ff fn gn p djb = some f) :
    BlmExact (blmRows fn gn ff) (blmVal ff) fn gn f ∧ DjbOk f ∧ f.F.nrows = m := by
  rw [blmInit_eq e] at h
  cases hH : blmFinish? env fuel ff m fn gn s.F s.G with
  | none => rw [hH] at h; cases h
  | some H =>
    rw [hH, Option.map_some] at h
    obtain ⟨h1, h2, h3⟩ := blmFinish_exact henv hk hff hH
    cases h
    cases djb
    · exact ⟨⟨h1, h2, rfl, rfl, rfl, h3⟩, (fun _ _ _ h => (by cases h)), rfl⟩
    · exact ⟨⟨h1, h2, rfl, rfl, rfl, h3⟩, djbCompile_ok henv _, rfl⟩

theorem blmInit_exact {env : BlmEnv} (henv : BlmEnvOk env) {fuel fn gn : Nat} {p : Nat → Nat} (hp : SchemeOk fn gn p)
    (hd : fn + gn ≤ schemeDegree p + 1) {ff : Option Gf2e} (hff : ∀ f, ff = some f → MinOK f.minpoly f.degree) {djb : Bool} {f : Blm}
    (h : blmInitCrt? env fuel ff fn gn p djb = some f) :
    BlmExact (blmRows fn gn ff) (blmVal ff) fn gn f ∧ DjbOk f ∧ f.F.nrows = blmCostCrt p := by
  obtain ⟨s, e, hr, hs⟩ := blmMaps_spec hp
  exact blmInit_exact' henv e (fun l hl => blmMaps_kills hp hd hs (by rw [hr]; exact hl)) hff h

/-! ### termination -/

/-- the `n`-th pair tried -/
def pairAt (fn gn : Nat) (n : Nat) : Nat × Nat := (fun vw : Nat × Nat => finNext fn gn vw.1 vw.2)^[n] (0, 0)

theorem pairAt_succ (fn gn n : Nat) : pairAt fn gn (n + 1) = finNext fn gn (pairAt fn gn n).1 (pairAt fn gn n).2 := by
  unfold pairAt; rw [Function.iterate_succ_apply']

theorem pairAt_bound {fn gn : Nat} (h1 : 1 ≤ fn) (h2 : fn ≤ gn) (n : Nat) :
    (pairAt fn gn n).1 < fn ∧ (pairAt fn gn n).2 < gn ∧ (pairAt fn gn n).1 ≤ (pairAt fn gn n).2 := by
  induction n with
  | zero => exact ⟨h1, by show 0 < gn; omega, le_rfl⟩
  | succ n ih =>
    rw [pairAt_succ]
    unfold finNext
    split
    · simp only
      split <;> omega
    · simp only; omega

theorem pairAt_cover {fn gn : Nat} (h2 : fn ≤ gn) (v : Nat) (hv : v < fn) : ∃ n, n ≤ v * gn ∧ ∀ j, v + j < gn → pairAt fn gn (n + j) = (v, v + j) := by
  have line : ∀ v n, pairAt fn gn n = (v, v) → ∀ j, v + j < gn → pairAt fn gn (n + j) = (v, v + j) := by
    intro v n h j
    induction j with
    | zero => intro _; exact h
    | succ j ih =>
      intro hj
      rw [← add_assoc n, pairAt_succ, ih (by omega)]
      unfold finNext
      rw [if_neg (by show ¬ v + j + 1 = gn; omega)]
      rfl
  induction v with
  | zero => exact ⟨0, by omega, fun j hj => by have := line 0 0 rfl j hj; exact this⟩
  | succ v ih =>
    obtain ⟨n, hn, h⟩ := ih (by omega)
    refine ⟨n + (gn - 1 - v) + 1, by rw [add_mul]; omega, line _ _ ?_⟩
    rw [pairAt_succ, h _ (by omega)]
    unfold finNext
    rw [if_pos (by show v + (gn - 1 - v) + 1 = gn; omega)]
    simp only
    rw [if_neg (by omega)]

theorem pairAt_all {fn gn : Nat} (h2 : fn ≤ gn) {v w : Nat} (hv : v < fn) (hw : w < gn) (hvw : v ≤ w) :
    ∃ n, n < fn * gn ∧ pairAt fn gn n = (v, w) := by
  obtain ⟨n, hn, h⟩ := pairAt_cover h2 v hv
  refine ⟨n + (w - v), ?_, by rw [h _ (by omega)]; congr 1; omega⟩
  have : (v + 1) * gn ≤ fn * gn := Nat.mul_le_mul_right _ (by omega)
  rw [add_mul] at this
  omega

/-- the state after `t` steps: the vectors of all pairs tried so far are combinations of the rows kept -/
structure FinTried (m fn gn : Nat) (F G : Nat → Nat → Word) (t : Nat) (s : FinState) : Prop where
  vw : (s.v, s.w) = pairAt fn gn t
  le : s.rank < m → s.r < m
  span : s.rank < m → ∀ i, i < t → pairVec m F G (pairAt fn gn i).1 (pairAt fn gn i).2 ∈
    Submodule.span (ZMod 2) (Set.range fun k : Fin s.r => gf2Row m s.C k)

theorem finStep_tried {env : BlmEnv} (henv : BlmEnvOk env) {m fn gn : Nat} {F G : Nat → Nat → Word} (h1 : 1 ≤ fn) (h2 : fn ≤ gn)
    {t : Nat} {s : FinState} (hs : FinTried m fn gn F G t s) (hr : s.rank < m) :
    ∃ s', finStep env m fn gn (mzdTranspose m fn F) (mzdTranspose m gn G) s = some s' ∧ FinTried m fn gn F G (t + 1) s' := by
  obtain ⟨b1, b2, b3⟩ := pairAt_bound h1 h2 t
  have ev : s.v = (pairAt fn gn t).1 := congrArg Prod.fst hs.vw
  have ew : s.w = (pairAt fn gn t).2 := congrArg Prod.snd hs.vw
  have hb : s.v < fn ∧ s.w < gn := ⟨by rw [ev]; exact b1, by rw [ew]; exact b2⟩
  unfold finStep
  rw [if_neg (not_not.2 hb)]
  simp only
  set C := finRow ((m + 63) / 64) (mzdTranspose m fn F) (mzdTranspose m gn G) s.v s.w s.r s.C with hC
  have hnew : gf2Row m C s.r = pairVec m F G s.v s.w := by
    funext c
    show gf2Entry C s.r c = _
    rw [hC, finRow_entry F G hb.1 hb.2 _ _ _ c.2, if_pos rfl]; rfl
  have hold : ∀ k, k ≠ s.r → gf2Row m C k = gf2Row m s.C k := by
    intro k hk
    funext c
    show gf2Entry C k c = _
    rw [hC, finRow_entry F G hb.1 hb.2 _ _ _ c.2, if_neg hk]; rfl
  have hmem : ∀ i, i < t + 1 → pairVec m F G (pairAt fn gn i).1 (pairAt fn gn i).2 ∈
      Submodule.span (ZMod 2) (Set.range fun k : Fin (s.r + 1) => gf2Row m C k) := by
    intro i hi
    by_cases hit : i = t
    · refine Submodule.subset_span ⟨⟨s.r, by omega⟩, ?_⟩
      rw [hit, ← ev, ← ew]; exact hnew
    · refine Submodule.span_mono ?_ (hs.span hr i (by omega))
      rintro x ⟨k, rfl⟩
      refine ⟨⟨k, by omega⟩, hold k (Nat.ne_of_lt k.2)⟩
  have hvw : finNext fn gn s.v s.w = pairAt fn gn (t + 1) := by rw [pairAt_succ, ev, ew]
  have hlt := hs.le hr
  by_cases hm : s.r + 1 = m
  · rw [if_pos hm]
    refine ⟨_, rfl, ?_⟩
    have hp := henv.ple m C
    refine ⟨by show ((finNext fn gn s.v s.w).1, (finNext fn gn s.v s.w).2) = _; rw [hvw], ?_, ?_⟩
    · intro hrm
      show (if (env.ple m C).1 < m then (env.ple m C).1 else m) < m
      rw [if_pos (show (env.ple m C).1 < m from hrm)]; exact hrm
    · intro hrm i hi
      have hrm' : (env.ple m C).1 < m := hrm
      have key : ∀ x ∈ Submodule.span (ZMod 2) (Set.range fun k : Fin (s.r + 1) => gf2Row m C k),
          x ∈ Submodule.span (ZMod 2) (Set.range fun k : Fin (env.ple m C).1 => gf2Row m C (rowPerm (env.ple m C).2 m k)) := by
        intro x hx
        refine Submodule.span_le.2 ?_ hx
        rintro y ⟨k, rfl⟩
        exact hp.span k (by have := k.2; omega)
      have := key _ (hmem i hi)
      show _ ∈ Submodule.span (ZMod 2) (Set.range fun k : Fin (if (env.ple m C).1 < m then (env.ple m C).1 else m) =>
        gf2Row m (mzdApplyPLeft m m C ⟨m, (env.ple m C).2⟩) k)
      rw [if_pos hrm']
      refine Submodule.span_mono ?_ this
      rintro y ⟨k, rfl⟩
      refine ⟨k, ?_⟩
      funext c
      show gf2 (bitAt _ _ _) = gf2 (bitAt _ _ _)
      rw [applyPLeft_bit, if_pos c.2, min_self]
  · rw [if_neg hm]
    refine ⟨_, rfl, ⟨by show ((finNext fn gn s.v s.w).1, (finNext fn gn s.v s.w).2) = _; rw [hvw], fun _ => by show s.r + 1 < m; omega, fun _ => hmem⟩⟩

theorem finLoop_terminates {env : BlmEnv} (henv : BlmEnvOk env) {m fn gn : Nat} {F G : Nat → Nat → Word} (h1 : 1 ≤ fn) (h2 : fn ≤ gn)
    (hspan : PairsSpan m fn gn F G) : ∀ (fuel t : Nat) (s : FinState), fn * gn ≤ t + fuel → FinTried m fn gn F G t s →
    ∃ s', finLoop env m fn gn (mzdTranspose m fn F) (mzdTranspose m gn G) fuel s = some s' := by
  intro fuel
  induction fuel with
  | zero =>
    intro t s ht hs
    refine ⟨s, finLoop_done fun hr => ?_⟩
    have htop : Submodule.span (ZMod 2) (Set.range fun k : Fin s.r => gf2Row m s.C k) = ⊤ := by
      rw [eq_top_iff, ← hspan, Submodule.span_le]
      rintro x ⟨v, w, hvw, hv, hw, rfl⟩
      obtain ⟨n, hn, e⟩ := pairAt_all h2 hv hw hvw
      have := hs.span hr n (by omega)
      rw [e] at this
      exact this
    have hfin := finrank_range_le_card (R := ZMod 2) (fun k : Fin s.r => gf2Row m s.C k)
    rw [Set.finrank, htop, finrank_top, Module.finrank_fin_fun, Fintype.card_fin] at hfin
    have := hs.le hr
    omega
  | succ fuel ih =>
    intro t s ht hs
    by_cases hr : s.rank < m
    · obtain ⟨s1, e1, hs1⟩ := finStep_tried henv h1 h2 hs hr
      rw [finLoop_succ hr, e1, Option.bind_some]
      exact ih (t + 1) s1 (by omega) hs1
    · exact ⟨s, finLoop_done hr⟩

theorem blmInit_some {env : BlmEnv} (henv : BlmEnvOk env) {fuel fn gn : Nat} {p : Nat → Nat} (h1 : 1 ≤ fn) (h2 : fn ≤ gn)
    {s : CrtState} (hs : blmMaps? fn gn p = some (blmCostCrt p, s)) (hspan : PairsSpan (blmCostCrt p) fn gn s.F s.G) (hfuel : fn * gn ≤ fuel)
    {ff : Option Gf2e} (hff : ∀ f, ff = some f → MinOK f.minpoly f.degree) (djb : Bool) :
    ∃ f, blmInitCrt? env fuel ff fn gn p djb = some f := by
  obtain ⟨s', e'⟩ := finLoop_terminates henv h1 h2 hspan fuel 0 ⟨zeroW, fun _ => (0, 0), 0, 0, 0, 0⟩ (by omega)
    ⟨rfl, fun h => h, fun _ i hi => absurd hi (Nat.not_lt_zero i)⟩
  have hnone : ∃ H, blmFinish? env fuel none (blmCostCrt p) fn gn s.F s.G = some H := by
    rw [blmFinish_eq, e', Option.bind_some]
    exact ⟨_, rfl⟩
  have hsome : ∃ H, blmFinish? env fuel ff (blmCostCrt p) fn gn s.F s.G = some H := by
    match ff, hff with
    | none, _ => exact hnone
    | some ff, hff =>
      obtain ⟨H, eH⟩ := hnone
      obtain ⟨N, eN, _⟩ := crtModredMat_spec (hff ff rfl) (fn + gn - 1)
      rw [blmFinish_some, eH, Option.bind_some, eN]
      exact ⟨_, rfl⟩
  obtain ⟨H, eH⟩ := hsome
  rw [blmInit_eq hs, eH]
  exact ⟨_, rfl⟩

/-- the loop ends only if the pairs span -/
theorem blmInit_span {env : BlmEnv} (henv : BlmEnvOk env) {fuel fn gn m : Nat} {p : Nat → Nat} {s : CrtState}
    (hs : blmMaps? fn gn p = some (m, s)) {ff : Option Gf2e} {djb : Bool} {f : Blm} (h : blmInitCrt? env fuel ff fn gn p djb = some f) :
    PairsSpan m fn gn s.F s.G := by
  rw [blmInit_eq hs] at h
  have key : ∃ s', finLoop env m fn gn (mzdTranspose m fn s.F) (mzdTranspose m gn s.G) fuel ⟨zeroW, fun _ => (0, 0), 0, 0, 0, 0⟩ = some s' := by
    cases e : finLoop env m fn gn (mzdTranspose m fn s.F) (mzdTranspose m gn s.G) fuel ⟨zeroW, fun _ => (0, 0), 0, 0, 0, 0⟩ with
    | some s' => exact ⟨s', rfl⟩
    | none =>
      have : blmFinish? env fuel ff m fn gn s.F s.G = none := by
        match ff with
        | none => rw [blmFinish_eq, e]; rfl
        | some ff => rw [blmFinish_eq', e]; rfl
      rw [this] at h; cases h
  obtain ⟨s', e⟩ := key
  obtain ⟨hi, hfull⟩ := finLoop_inv henv fuel (finInv_init henv) e
  obtain ⟨hr, hind⟩ := hi.full hfull
  have htop : Submodule.span (ZMod 2) (Set.range fun k : Fin m => gf2Row m s'.C k) = ⊤ :=
    hind.span_eq_top_of_card_eq_finrank' (by rw [Fintype.card_fin, Module.finrank_fin_fun])
  unfold PairsSpan
  rw [eq_top_iff, ← htop, Submodule.span_le]
  rintro x ⟨k, rfl⟩
  obtain ⟨h1, h2, h3, h4⟩ := hi.rows k (by rw [hr]; exact k.2)
  exact Submodule.subset_span ⟨_, _, h4, h1, h2, h3⟩

end M4rie
