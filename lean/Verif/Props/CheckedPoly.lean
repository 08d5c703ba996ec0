import Verif.Proofs.CheckedPoly
import Verif.Props.PolyHistory
import Verif.Spec.PolyFit

/-!
# Property C76: creating fields, CRT schemes and polynomials, and everything done with polynomials, stays inside the memory

The checked model (`Model/CheckedPoly.lean`) refuses to go on at a subscript outside an array, a shift by too much, an `int` overflow, a failed assertion or a
violated demand of M4RI.  On the domain of the API it goes through and gives what the total model gives, whether assertions are compiled in (`dbg`) or not.
-/

namespace M4rie.Props
open M4rie M4rie.Spec

/-! ### field objects -/

/-- **C76** `gf2e_init(minpoly)` for every minimal polynomial of degree 1 to 16, whatever the memory it gets contains: it never leaves its tables, and all entries of the tables that
exist are those of the object `gf2eInit` describes (C01 to C08). -/
theorem C76_gf2e_init (dbg : Bool) (pg0 : Nat → Word) (mt0 : Nat → Nat → Word) {f : Word} (h : SupportedMinpoly f) :
    ∃ ff g, gf2eInit f = some ff ∧ Chk.gf2eInit dbg pg0 mt0 f = some g ∧ g.degree = ff.degree ∧ g.minpoly = ff.minpoly ∧ (∀ i, g.red i = ff.red i) ∧
      (∀ i, i < 2 * ff.degree - 1 → g.powGen i = ff.powGen i) ∧ (g.mulTab.isSome ↔ ff.degree ≤ 8) ∧
      ∀ t, g.mulTab = some t → ∃ t', ff.mulTab = some t' ∧ ∀ a b, a < 2 ^ ff.degree → b < 2 ^ ff.degree → t a b = t' a b := by
  obtain ⟨ff, e1, hok, hd, e2⟩ := Chk.gf2eInit_eq dbg pg0 mt0 h.minOK
  refine ⟨ff, _, e1, e2, rfl, rfl, fun _ => rfl, fun i hi => ?_, ?_, fun t ht => ?_⟩
  · rw [hd] at hi
    exact if_pos hi
  · show (Option.map _ ff.mulTab).isSome ↔ _
    rw [Option.isSome_map]
    have := e1
    unfold gf2eInit at this
    rw [initDegree_eq h.minOK] at this
    dsimp only at this
    obtain ⟨red, -, h0⟩ := Option.bind_eq_some_iff.1 this
    rw [hd]
    by_cases h8 : (toPoly f).natDegree ≤ 8
    · simp only [h8] at h0
      cases h0
      simp [h8]
    · simp only [h8] at h0
      cases h0
      simp [h8]
  · obtain ⟨t', ht', rfl⟩ := Option.map_eq_some_iff.1 ht
    rw [← hd]
    exact ⟨t', ht', fun a b ha hb => if_pos ⟨ha, hb⟩⟩

/-- **C76** (negation) it does not work for degree 0 -/
theorem C76_violation_gf2e_init (dbg : Bool) (pg0 : Nat → Word) (mt0 : Nat → Nat → Word) : Chk.gf2eInit dbg pg0 mt0 1#64 = none := by
  unfold Chk.gf2eInit
  have : Chk.initDegree 1#64 = some 0 := by decide +kernel
  rw [this, Option.bind_some]
  rfl

/-! ### CRT schemes -/

/-- **C76** `crt_init(f_len,g_len)` as long as the product of the lengths can be expressed in an `int`. -/
theorem C76_crt_init {fLen gLen : Nat} (h : fLen + gLen ≤ 130487) (hm : fLen * gLen < 2 ^ 31) :
    ∃ p, Chk.crtInit fLen gLen = some p ∧ crtInit? fLen gLen = some p := by
  obtain ⟨p, e⟩ := crtInit_some h
  exact ⟨p, by rw [Chk.crtInit_eq h hm, e], e⟩

/-- **C76** (negation) otherwise `crt_init` overflows an `int` before it has looked at any scheme. -/
theorem C76_violation_crt_product {fLen gLen : Nat} (hm : 2 ^ 31 ≤ fLen * gLen) : Chk.crtInit fLen gLen = none := by
  unfold Chk.crtInit Chk.int?
  rw [if_neg (by omega)]
  rfl

-- lengths for which there is a scheme although `crt_init` overflows, and lengths for which it does not
example : (∃ p, crtInit? 46341 46341 = some p) ∧ Chk.crtInit 46341 46341 = none ∧ ∃ p, Chk.crtInit 46340 46340 = some p :=
  ⟨crtInit_some (by norm_num), C76_violation_crt_product (by norm_num), (C76_crt_init (by norm_num) (by norm_num)).imp fun _ h => h.1⟩

/-! ### products by bilinear maps -/

section
variable {C A B : MzdPoly}

/-- **C76** `_mzd_poly_addmul_crt(C,A,B)`: if a scheme was found and the map could be computed, the map is computed and applied without leaving an array. -/
theorem C76_addmul_crt (dbg : Bool) {env : BlmEnv} (henv : BlmEnvOk env) {fuel : Nat} (hf : PolyFits C A B) (hd : A.depth + B.depth - 1 ≤ C.depth) (h1 : 1 ≤ A.depth) (h2 : 1 ≤ B.depth)
    (hs : A.depth + B.depth ≤ 130487) (hm : A.depth * B.depth < 2 ^ 31) {p : Nat → Nat} (hp : crtInit? A.depth B.depth = some p) {k : Nat} (hk : p k ≠ 0)
    {R : Option MzdPoly} (h : mzdPolyAddmulCrt? env fuel (some C) A B = some R) : Chk.polyAddmulCrt dbg env fuel (some C) A B = some R := by
  unfold mzdPolyAddmulCrt? at h
  unfold Chk.polyAddmulCrt
  rw [Chk.crtInit_eq hs hm]
  rw [hp, Option.bind_some] at h
  rw [hp, Option.bind_some]
  cases hb : blmInitCrt? env fuel none A.depth B.depth p true with
  | none => rw [hb] at h; cases h
  | some f =>
    rw [hb, Option.bind_some] at h
    have hx := (C40_crt_exact henv hp hk hb).1
    obtain ⟨s1, s2, s3⟩ := blmInit_inf hb
    rcases crtInit_spec hp with h0 | hg
    · rw [h0] at hk; exact absurd rfl hk
    · obtain ⟨_, hdj, _⟩ := blmInit_exact henv ⟨s1, s2, s3, hg.tab⟩ hg.deg (ff := none) (fun f hf => by cases hf) hb
      have hc := hg.cost
      rw [Chk.blmInitCrt_eq dbg henv (by omega) (by omega) (fun f hf => by cases hf) hb, Option.bind_some]
      dsimp only
      rw [Chk.polyAddmulBlm_eq dbg hf h1 h2 hx.2.1 hx.2.2.1 hdj hx.2.2.2.1 hx.2.2.2.2.1 (by rw [hx.1]; exact hd)]
      exact h

end

/-! ### evaluation and interpolation -/

theorem ext1_fits {d w : Nat} (hd : d ≤ 65536) (hw : w ≤ 16) : w * (d + d) < 2 ^ 31 := by
  calc w * (d + d) ≤ 16 * (65536 + 65536) := Nat.mul_le_mul hw (by omega)
    _ < 2 ^ 31 := by norm_num

/-- **C76** `_mzd_poly_addmul_ext1(C,A,B)`, from the choice of the field to the interpolation. -/
theorem C76_addmul_ext1 (dbg : Bool) {cb : Codebook} (optK : Nat) (small : Bool) (fid : Nat) {C A B : MzdPoly} (hf : PolyFits C A B)
    (hd : A.depth + B.depth - 1 ≤ C.depth) (h1 : 1 ≤ A.depth) (h2 : 1 ≤ B.depth) (h3 : 3 ≤ A.depth + B.depth - 1) (h16 : A.depth + B.depth - 1 ≤ 65536)
    (hcb : cb.Ok (Nat.clog 2 (A.depth + B.depth - 1))) : Chk.polyAddmulExt1 dbg cb optK small fid C A B = mzdPolyAddmulExt1? cb optK small fid C A B := by
  obtain ⟨c1, c2, c3⟩ := clog_facts h3 h16
  have hlen : 0 < (irredTable (Nat.clog 2 (A.depth + B.depth - 1))).length := by
    rw [(C09_nodup_count _).2]
    revert c1 c2
    generalize Nat.clog 2 (A.depth + B.depth - 1) = k
    intro c1 c2
    interval_cases k <;> decide
  set n := (irredTable (Nat.clog 2 (A.depth + B.depth - 1)))[0] with hn
  have hmem : n ∈ irredTable (Nat.clog 2 (A.depth + B.depth - 1)) := List.getElem_mem hlen
  obtain ⟨g1, g2⟩ := C09_irreducible _ n hmem
  obtain ⟨ff, e1, e2, e3, e4⟩ := C09_init_field _ n hmem (by omega) c2
  have hF : IsField ff := ⟨BitVec.ofNat 64 n, by rw [g1]; exact c1, by rw [g1]; exact c2, g2, e1⟩
  have hdw : ∃ w, degreeToW? ff.degree = some w := by
    rw [e2]
    revert c1 c2
    generalize Nat.clog 2 (A.depth + B.depth - 1) = k
    intro c1 c2
    interval_cases k <;> exact ⟨_, rfl⟩
  obtain ⟨w, hw⟩ := hdw
  have hmin : MinOK (BitVec.ofNat 64 n) (Nat.clog 2 (A.depth + B.depth - 1)) := ⟨g1, by omega, c2⟩
  unfold Chk.polyAddmulExt1 mzdPolyAddmulExt1?
  rw [Chk.int_eq (by omega), Option.bind_some, if_neg (by omega)]
  dsimp only
  rw [Chk.assert_eq c2, Option.bind_some, Chk.need_eq (by omega), Option.bind_some, if_neg (not_not.2 ⟨hf, hd⟩), if_neg (by omega), List.getElem?_eq_getElem hlen, ← hn, Option.bind_some,
    Option.bind_some, e1, Option.bind_some, Option.bind_some, Chk.gf2eInit_same dbg hmin e1, Option.bind_some, hw, Option.bind_some]
  exact Chk.ext1Body_eq dbg (by rw [e2]; exact hcb) optK small fid hf h1 h2 (by omega) hd (by rw [e2]; exact c3) (ext1_fits h16 (by
    rw [e2]
    revert c1 c2
    generalize Nat.clog 2 (A.depth + B.depth - 1) = k
    intro c1 c2
    interval_cases k <;> decide))

/-! ### one call -/

theorem polyAddLoop_checked {c : PolyPool} {d a b off : Nat} {C A B : MzdPoly} (hC : c d = some C) (hA : c a = some A) (hB : c b = some B)
    (h1 : off + A.depth ≤ C.depth) (h2 : A.depth ≤ B.depth) (hr : A.nrows = B.nrows ∧ C.nrows = A.nrows) (hc : A.ncols = B.ncols ∧ C.ncols = A.ncols) :
    Chk.polyAddLoop c d a b off = polyAddLoop? c d a b off := by
  unfold Chk.polyAddLoop polyAddLoop?
  rw [hA, Option.bind_some, Option.bind_some]
  refine (Chk.forC_M (fun c' : PolyPool => ∀ k P, c k = some P → ∃ P', c' k = some P' ∧ P'.nrows = P.nrows ∧ P'.ncols = P.ncols ∧ P'.depth = P.depth) _ _ A.depth c
    (fun k P h => ⟨P, h, rfl, rfl, rfl⟩) fun i c' hi h => ?_).1
  obtain ⟨C', eC, c1, c2, c3⟩ := h d C hC
  obtain ⟨A', eA, a1, a2, a3⟩ := h a A hA
  obtain ⟨B', eB, b1, b2, b3⟩ := h b B hB
  have hk : ptrAddOrder A.depth i < A.depth := ptrAddOrder_lt hi
  dsimp only
  rw [eC, Option.bind_some, eA, Option.bind_some, eB, Option.bind_some, Option.bind_some, Option.bind_some, Option.bind_some,
    if_pos ⟨by omega, by omega, by omega, by rw [a1, b1]; exact hr.1, by rw [a2, b2]; exact hc.1, by rw [c1, a1]; exact hr.2, by rw [c2, a2]; exact hc.2⟩]
  have pC : Chk.parr C' = ⟨C'.depth, A'.nrows, A'.ncols, C'.x⟩ := by unfold Chk.parr; rw [c1, hr.2, ← a1, c2, hc.2, ← a2]
  have pB : Chk.parr B' = ⟨B'.depth, A'.nrows, A'.ncols, B'.x⟩ := by unfold Chk.parr; rw [b1, ← hr.1, ← a1, b2, ← hc.1, ← a2]
  rw [pC, pB, show Chk.parr A' = ⟨A'.depth, A'.nrows, A'.ncols, A'.x⟩ from rfl, Chk.get_eq _ (by omega), Option.bind_some, Chk.get_eq _ (by omega), Option.bind_some,
    Chk.get_eq _ (by omega), Option.bind_some, Chk.padd_eq, Option.bind_some, Chk.put_eq _ _ (by omega), Option.bind_some]
  refine ⟨rfl, fun s' e => ?_⟩
  cases e
  intro k P hP
  by_cases hkd : k = d
  · subst hkd
    rw [hC] at hP
    cases hP
    exact ⟨_, PolyPool.set_self .., c1, c2, c3⟩
  · rw [PolyPool.set_ne _ hkd]
    exact h k P hP

theorem polyRandomize_checked (A : MzdPoly) (r : Nat → Nat → Nat → Bool) : Chk.polyRandomize A r = some (mzdPolyRandomize A r) := by
  unfold Chk.polyRandomize
  rw [show Chk.parr A = ⟨A.depth, A.nrows, A.ncols, A.x⟩ from rfl, Chk.forC_map (fun x => (⟨A.depth, A.nrows, A.ncols, x⟩ : Chk.Arr)) _
    (fun k x => setSlice x k (mzdRandomize A.nrows A.ncols (x k) (r k)))]
  · rfl
  intro i x hi
  rw [Chk.get_eq _ hi, Option.bind_some]
  exact Chk.put_eq _ _ hi

theorem polyAdaptDepth_checked {A : MzdPoly} (hw : A.depth ≤ A.cap) (e : Nat) : Chk.polyAdaptDepth A e = mzdPolyAdaptDepth? A e := by
  unfold Chk.polyAdaptDepth mzdPolyAdaptDepth?
  by_cases h : e < A.depth
  · rw [if_pos h, if_pos h]
    have := Chk.forC_map (fun u : Unit => u) (fun i (_ : Unit) => Chk.need (e + i < A.depth ∧ e + i < A.cap)) (fun _ u => u) (A.depth - e)
      (fun i u hi => by rw [Chk.need_eq ⟨by omega, by omega⟩]) ()
    rw [this, Option.bind_some]
  · rw [if_neg h, if_neg h]
    have : Chk.forC (fun i (B : MzdPoly) => (Chk.need (A.depth + i < B.cap)).bind fun _ => some { B with x := setSlice B.x (A.depth + i) zeroW }) (e - A.depth) A =
        forNM (fun i (B : MzdPoly) => if A.depth + i < B.cap then some { B with x := setSlice B.x (A.depth + i) zeroW } else none) (e - A.depth) A := by
      refine (Chk.forC_M (fun _ => True) _ _ _ A trivial fun i B _ _ => ⟨?_, fun _ _ => trivial⟩).1
      unfold Chk.need
      by_cases hb : A.depth + i < B.cap
      · rw [if_pos hb, if_pos hb, Option.bind_some]
      · rw [if_neg hb, if_neg hb, Option.bind_none]
    rw [this]
    exact Option.map_eq_bind.symm

theorem polyCmp_checked {cmp : (Nat × Nat) × (Nat → Nat → Word) → (Nat × Nat) × (Nat → Nat → Word) → BitVec 32} (A B : MzdPoly) :
    Chk.polyCmp cmp A B = some (mzdPolyCmp cmp A B) := by
  unfold Chk.polyCmp mzdPolyCmp
  by_cases h : A.depth ≠ B.depth
  · rw [if_pos h, if_pos h]
  · rw [if_neg h, if_neg h]
    rw [not_not] at h
    refine Chk.forC_map (fun r : BitVec 32 => r) _ (fun i r => r ||| cmp ((A.nrows, A.ncols), A.x i) ((B.nrows, B.ncols), B.x i)) A.depth (fun i r hi => ?_) 0#32
    rw [show Chk.parr A = ⟨A.depth, A.nrows, A.ncols, A.x⟩ from rfl, show Chk.parr B = ⟨B.depth, B.nrows, B.ncols, B.x⟩ from rfl, Chk.get_eq _ hi, Option.bind_some,
      Chk.get_eq _ (by omega), Option.bind_some]

theorem polyAddmulBy_checked (dbg : Bool) {lib : PolyLib} (hl : PolyLibOk lib) {C A B : MzdPoly} (alg : PolyAlg) (hf : PolyFits C A B) (hd : A.depth + B.depth - 1 ≤ C.depth)
    (hdom : alg.Domain A.depth B.depth) : Chk.polyAddmulBy dbg lib alg C A B = polyAddmulBy? lib alg C A B := by
  cases alg with
  | naive => exact Chk.polyAddmulNaive_eq hf hd
  | karatsuba =>
    obtain ⟨h1, h2, h3⟩ := hdom
    exact Chk.polyAddmulKara_eq dbg hf h1 h2 h3 hd
  | ext1 =>
    obtain ⟨h1, h2, h3, h4⟩ := hdom
    exact C76_addmul_ext1 dbg lib.optK lib.small lib.fid hf hd h1 h2 h3 h4 (hl.cb _)

theorem polyMulBy_checked (dbg : Bool) {A B : MzdPoly} (alg : PolyAlg) (hf : A.ncols = B.nrows) (h1 : 1 ≤ A.depth + B.depth) (hs : A.depth + B.depth < 2 ^ 31)
    (hdom : alg.Domain A.depth B.depth) : Chk.polyMulBy dbg alg A B = polyMulBy? alg A B := by
  have hfit : PolyFits (mzdPolyInit (A.depth + B.depth - 1) A.nrows B.ncols) A B := ⟨hf, rfl, rfl⟩
  have hd : A.depth + B.depth - 1 ≤ (mzdPolyInit (A.depth + B.depth - 1) A.nrows B.ncols).depth := Nat.le_succ _
  cases alg with
  | naive =>
    show (Chk.polyProductInit A B).bind _ = _
    rw [Chk.polyProductInit_eq hs h1, Option.bind_some]
    exact Chk.polyAddmulNaive_eq hfit hd
  | karatsuba =>
    obtain ⟨d1, d2, d3⟩ := hdom
    show (Chk.polyProductInit A B).bind _ = _
    rw [Chk.polyProductInit_eq hs h1, Option.bind_some]
    exact Chk.polyAddmulKara_eq dbg hfit d1 d2 d3 hd
  | ext1 => rfl

theorem polySized_set {s : APolyState} (h : PolySized s) (d : Nat) {X : APoly} (hX : X.depth ≤ X.cap) : PolySized (s.set d (some X)) := by
  intro k Y hY
  unfold APolyState.set at hY
  by_cases hk : k = d
  · rw [if_pos hk] at hY; cases hY; exact hX
  · rw [if_neg hk] at hY; exact h k Y hY

/-- **C76** every call the specification allows: the checked call does what the call does -/
theorem C76_call (dbg : Bool) {lib : PolyLib} (hl : PolyLibOk lib) {c : PolyPool} {s s' : APolyState} {op : PolyOp} {out : PolyOut} (hc : PolyStores c s) (hz : PolySized s)
    (hfit : PolyOpFits s op) (h : PolyAllowed s op out s') :
    ∃ c', Chk.polyCall dbg lib c op = some (c', out) ∧ PolyStores c' s' ∧ PolySized s' := by
  have key : Chk.polyCall dbg lib c op = polyCall lib c op ∧ PolySized s' := by
    cases h with
    | init d deg m n hd =>
      refine ⟨?_, polySized_set hz d le_rfl⟩
      show (Chk.polyInit deg m n).map _ = _
      unfold Chk.polyInit
      rw [Chk.int_eq hfit]
      rfl
    | @free d X hd =>
      refine ⟨rfl, fun k Y hY => ?_⟩
      unfold APolyState.set at hY
      by_cases hk : k = d
      · rw [if_pos hk] at hY; cases hY
      · rw [if_neg hk] at hY; exact hz k Y hY
    | @writeBit d m n e p X t ht i j v hd =>
      refine ⟨?_, polySized_set hz d (by have := hz d _ hd; exact this)⟩
      obtain ⟨P, e1, hP⟩ := hc.get hd
      have h1 : P.nrows = m := hP.nrows
      have h2 : P.ncols = n := hP.ncols
      have h3 : P.depth = e := hP.depth
      show (c d).bind _ = (c d).bind _
      rw [e1, Option.bind_some, Option.bind_some]
      congr 1
      have b1 : (i : Nat) < P.nrows := by rw [h1]; exact i.2
      have b2 : (j : Nat) < P.ncols := by rw [h2]; exact j.2
      unfold Chk.polyWriteBit mzdPolyWriteBit?
      rw [if_pos ⟨by omega, b1, b2⟩, show Chk.parr P = ⟨P.depth, P.nrows, P.ncols, P.x⟩ from rfl, Chk.get_eq _ (by omega), Option.bind_some]
      dsimp only
      rw [Chk.mWrite_eq _ b1 b2, Option.bind_some]
      dsimp only
      rw [Chk.put_eq _ _ (by omega), Option.bind_some]
    | @readBit a m n e p X t ht i j ha =>
      refine ⟨?_, hz⟩
      obtain ⟨P, e1, hP⟩ := hc.get ha
      have h1 : P.nrows = m := hP.nrows
      have h2 : P.ncols = n := hP.ncols
      have h3 : P.depth = e := hP.depth
      have b1 : (i : Nat) < P.nrows := by rw [h1]; exact i.2
      have b2 : (j : Nat) < P.ncols := by rw [h2]; exact j.2
      show (c a).bind _ = (c a).bind _
      rw [e1, Option.bind_some, Option.bind_some, if_pos ⟨by omega, b1, b2⟩]
      unfold Chk.polyReadBit
      rw [show Chk.parr P = ⟨P.depth, P.nrows, P.ncols, P.x⟩ from rfl, Chk.get_eq _ (by omega), Option.bind_some]
      dsimp only
      rw [Chk.mRead_eq _ b1 b2]
      rfl
    | @randomize d m n e p X r hd =>
      refine ⟨?_, polySized_set hz d (by have := hz d _ hd; exact this)⟩
      obtain ⟨P, e1, hP⟩ := hc.get hd
      show (c d).bind _ = (c d).map _
      rw [e1, Option.bind_some, polyRandomize_checked]
      rfl
    | @addOffset d a b m n e p ea pa eb pb off Z X Y hd ha hb h1 h2 h3 =>
      refine ⟨?_, polySized_set hz d (by have := hz d _ hd; exact this)⟩
      obtain ⟨C, e1, hC⟩ := hc.get hd
      obtain ⟨A, e2, hA⟩ := hc.get ha
      obtain ⟨B, e3, hB⟩ := hc.get hb
      have dA : A.depth = ea := hA.depth
      have dB : B.depth = eb := hB.depth
      have dC : C.depth = e := hC.depth
      exact congrArg (Option.map _) (polyAddLoop_checked e1 e2 e3 (by omega) (by omega) ⟨hA.nrows.trans hB.nrows.symm, hC.nrows.trans hA.nrows.symm⟩
        ⟨hA.ncols.trans hB.ncols.symm, hC.ncols.trans hA.ncols.symm⟩)
    | @add d a b m n e p ea pa pb Z X Y hd ha hb h1 =>
      refine ⟨?_, polySized_set hz d (by have := hz d _ hd; exact this)⟩
      obtain ⟨C, e1, hC⟩ := hc.get hd
      obtain ⟨A, e2, hA⟩ := hc.get ha
      obtain ⟨B, e3, hB⟩ := hc.get hb
      have dA : A.depth = ea := hA.depth
      have dB : B.depth = ea := hB.depth
      have dC : C.depth = e := hC.depth
      refine congrArg (Option.map _) ?_
      unfold Chk.polyAdd polyAdd?
      rw [e1, Option.bind_some, Option.bind_some, e2, Option.bind_some, Option.bind_some, e3, Option.bind_some, Option.bind_some, if_pos ⟨by omega, by omega⟩,
        Chk.assert_eq ⟨by omega, by omega⟩, Option.bind_some]
      exact polyAddLoop_checked e1 e2 e3 (by omega) (by omega) ⟨hA.nrows.trans hB.nrows.symm, hC.nrows.trans hA.nrows.symm⟩ ⟨hA.ncols.trans hB.ncols.symm, hC.ncols.trans hA.ncols.symm⟩
    | @adaptDepth d m n e p e' X hd h1 =>
      refine ⟨?_, polySized_set hz d h1⟩
      obtain ⟨P, e1, hP⟩ := hc.get hd
      have hw : P.depth ≤ P.cap := by rw [hP.depth, hP.cap]; exact hz d _ hd
      show (c d).bind _ = (c d).bind _
      rw [e1, Option.bind_some, Option.bind_some, polyAdaptDepth_checked hw]
    | @addmul d a b m k n e p ea pa eb pb Z X Y alg hd ha hb h1 h2 h3 h4 =>
      refine ⟨?_, polySized_set hz d (by have := hz d _ hd; exact this)⟩
      obtain ⟨C, e1, hC⟩ := hc.get hd
      obtain ⟨A, e2, hA⟩ := hc.get ha
      obtain ⟨B, e3, hB⟩ := hc.get hb
      have dA : A.depth = ea := hA.depth
      have dB : B.depth = eb := hB.depth
      have dC : C.depth = e := hC.depth
      have hn : ¬ (d = a ∨ d = b) := fun h => h.elim h1 h2
      show (Chk.need (d ≠ a ∧ d ≠ b)).bind _ = (if d = a ∨ d = b then none else _)
      rw [Chk.need_eq ⟨h1, h2⟩, Option.bind_some, if_neg hn, e1, Option.bind_some, Option.bind_some, e2, Option.bind_some, Option.bind_some, e3, Option.bind_some, Option.bind_some,
        polyAddmulBy_checked dbg hl alg ⟨hA.ncols.trans hB.nrows.symm, hC.nrows.trans hA.nrows.symm, hC.ncols.trans hB.ncols.symm⟩ (by omega) (by rw [dA, dB]; exact h4)]
    | @mul d a b m k n ea pa eb pb X Y alg hd ha hb h1 h2 h3 =>
      refine ⟨?_, polySized_set hz d le_rfl⟩
      obtain ⟨A, e2, hA⟩ := hc.get ha
      obtain ⟨B, e3, hB⟩ := hc.get hb
      have dA : A.depth = ea := hA.depth
      have dB : B.depth = eb := hB.depth
      show (c a).bind _ = (c a).bind _
      rw [e2, Option.bind_some, Option.bind_some, e3, Option.bind_some, Option.bind_some,
        polyMulBy_checked dbg alg (hA.ncols.trans hB.nrows.symm) (by omega) (by rw [dA, dB]; exact hfit _ _ ha hb) (by rw [dA, dB]; exact h2)]
    | @equal a b m n ea pa eb pb X Y ha hb =>
      refine ⟨?_, hz⟩
      obtain ⟨A, e2, hA⟩ := hc.get ha
      obtain ⟨B, e3, hB⟩ := hc.get hb
      show (c a).bind _ = (c a).bind _
      rw [e2, Option.bind_some, Option.bind_some, e3, Option.bind_some, Option.map_some, polyCmp_checked]
      rfl
  obtain ⟨c', e, hc'⟩ := C72_call hl hc h
  exact ⟨c', key.1.trans e, hc', key.2⟩

/-! ### programs -/

/-- **C76** every program on matrices over GF(2)[x]: the checked library returns and leaves behind what the specification says -/
theorem C76_program (dbg : Bool) {lib : PolyLib} (hl : PolyLibOk lib) : ∀ (ops : List PolyOp) {c : PolyPool} {s s' : APolyState} {outs : List PolyOut}, PolyStores c s → PolySized s →
    PolyRunsFit s ops outs s' → ∃ c', Chk.polyRun dbg lib c ops = some (c', outs) ∧ PolyStores c' s'
  | [], c, s, s', outs, hc, _, h => by
    cases h
    exact ⟨c, rfl, hc⟩
  | op :: ops, c, s, s', outs, hc, hz, h => by
    cases h with
    | cons h0 h1 h2 =>
      obtain ⟨c1, e1, hc1, hz1⟩ := C76_call dbg hl hc hz h0 h1
      obtain ⟨c2, e2, hc2⟩ := C76_program dbg hl ops hc1 hz1 h2
      refine ⟨c2, ?_, hc2⟩
      show (Chk.polyCall dbg lib c op).bind _ = _
      rw [e1, Option.bind_some]
      show (Chk.polyRun dbg lib c1 ops).map _ = _
      rw [e2]
      rfl

/-- **C76** a program all of whose calls may be made when their turn comes, and whose polynomials are not too long, never leaves an array, overflows an `int` or fails an assertion -/
theorem C76_safe (dbg : Bool) {lib : PolyLib} (hl : PolyLibOk lib) : ∀ (ops : List PolyOp) {c : PolyPool} {s : APolyState}, PolyStores c s → PolySized s → PolySafeFit s ops →
    ∃ c' outs s', Chk.polyRun dbg lib c ops = some (c', outs) ∧ PolyRuns s ops outs s' ∧ PolyStores c' s'
  | [], c, s, hc, _, _ => ⟨c, [], s, rfl, .nil s, hc⟩
  | op :: ops, c, s, hc, hz, ⟨h0, ⟨out, s1, h1⟩, h2⟩ => by
    obtain ⟨c1, e1, hc1, hz1⟩ := C76_call dbg hl hc hz h0 h1
    obtain ⟨c2, outs, s2, e2, r2, hc2⟩ := C76_safe dbg hl ops hc1 hz1 (h2 out s1 h1)
    refine ⟨c2, out :: outs, s2, ?_, .cons h1 r2, hc2⟩
    show (Chk.polyCall dbg lib c op).bind _ = _
    rw [e1, Option.bind_some]
    show (Chk.polyRun dbg lib c1 ops).map _ = _
    rw [e2]
    rfl

/-! ### instances -/

-- the program of C72, with assertions and without
example (dbg : Bool) (r : Nat → Nat → Nat → Bool) : ∃ c' outs, Chk.polyRun dbg stdPolyLib (fun _ => none) (polyDemo r) = some (c', outs) := by
  have h0 : PolyStores (fun _ => none) (fun _ => none) := fun _ => trivial
  obtain ⟨c', e, _⟩ := C76_program dbg stdPolyLib_ok (polyDemo r) (c := fun _ => none) (s := fun _ => none) h0 (fun k X h => by cases h)
    (.cons (show 4 + 1 < 2 ^ 31 by norm_num) (.init 0 4 3 2 rfl) (.cons (show 3 + 1 < 2 ^ 31 by norm_num) (.init 1 3 2 6 rfl) (.cons trivial (.randomize r rfl) (.cons trivial (.writeBit (by decide) (1 : Fin 2) (5 : Fin 6) true rfl)
    (.cons (fun X Y hX hY => by cases hX; cases hY; norm_num) (.mul .naive rfl rfl rfl (by decide) trivial (by simp)) (.cons trivial (.addmul .ext1 rfl rfl rfl (by decide) (by decide) (by decide) ⟨by decide, by decide, by decide, by decide⟩)
    (.cons (show 8 + 1 < 2 ^ 31 by norm_num) (.init 3 8 3 6 rfl) (.cons trivial (.equal rfl rfl) (.cons trivial (.add rfl rfl rfl (by decide)) (.cons trivial (.adaptDepth rfl (by decide))
    (.cons trivial (.readBit (by decide) (1 : Fin 3) (1 : Fin 6) rfl) (.cons trivial (.free 0 rfl) (.nil _)))))))))))))
  exact ⟨c', _, e⟩

-- a product by a CRT scheme (the operands of `C55_violation_crt`)
example (dbg : Bool) : ∃ R, Chk.polyAddmulCrt dbg stdBlmEnv 4 (some constOne) onePlusX onePlusX = some R := by
  obtain ⟨p, f, e1, _, q1, e2, hx, _⟩ := C40_instance
  obtain ⟨R, e, -⟩ := C55_violation_crt
  have hf : PolyFits constOne onePlusX onePlusX := ⟨rfl, rfl, rfl⟩
  have a1 : onePlusX.depth = 2 := rfl
  have a2 : constOne.depth = 3 := rfl
  have hp : crtInit? onePlusX.depth onePlusX.depth = some p := by rw [a1]; exact e1
  have hk : p 1 ≠ 0 := by rw [q1]; decide
  exact ⟨some R, C76_addmul_crt dbg stdBlmEnv_ok hf (by rw [a1, a2]) (by rw [a1]; decide) (by rw [a1]; decide) (by rw [a1]; norm_num) (by rw [a1]; norm_num) hp hk e⟩

-- a field object made from memory full of ones
example : ∃ g, Chk.gf2eInit true (fun _ => 1#64) (fun _ _ => 1#64) 0x11b#64 = some g ∧ g.degree = 8 := by
  obtain ⟨ff, g, e1, e2, h1, -⟩ := C76_gf2e_init true (fun _ => 1#64) (fun _ _ => 1#64) (f := 0x11b#64) (supported_of_deg (by decide) (by decide))
  obtain ⟨ff', e3, h2, -⟩ := C05_red_table 0x11b#64 (supported_of_deg (by decide) (by decide))
  rw [e3] at e1
  cases e1
  exact ⟨g, e2, h1.trans (by rw [h2, ← gf2xDeg_natDegree]; decide)⟩

end M4rie.Props
