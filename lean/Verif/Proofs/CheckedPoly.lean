import Verif.Proofs.CheckedField
import Verif.Proofs.CheckedApi
import Verif.Proofs.PolyExtMain
import Verif.Props.NewtonJohn

/-!
# The checked routines for matrices over GF(2)[x] do what the total ones do
-/

namespace M4rie.Chk
open M4rie.Spec

/-! ### bilinear maps, any depths -/

theorem blmSelect_eq {len m k : Nat} {F : Mzd} (hl : F.ncols ≤ len) {i : Nat} (hi : i < F.nrows) (A : Nat → Nat → Nat → Word) :
    blmSelect F i ⟨len, m, k, A⟩ = some ⟨m, k, M4rie.blmSelect F i m k A⟩ := by
  unfold blmSelect M4rie.blmSelect
  refine forC_map (fun w => (⟨m, k, w⟩ : Pl)) _ (fun j t => if bitAt F.w i j = true then mzdAdd m k t t (A j) else t) F.ncols (fun j w hj => ?_) zeroW
  have er : mRead F i j = some (bitAt F.w i j) := mRead_eq (nr := F.nrows) (nc := F.ncols) F.w hi hj
  rw [er, Option.bind_some]
  by_cases hb : bitAt F.w i j = true
  · rw [if_pos hb, if_pos hb, get_eq _ (by omega), Option.bind_some, padd_eq]
  · rw [if_neg hb, if_neg hb]

theorem ptrApplyBlmMzd_eq (dbg : Bool) {f : Blm} (hc : f.H.ncols = f.F.nrows) (hg : f.F.nrows = f.G.nrows) {dA dB dC m k n : Nat} (hA : 0 < dA) (hB : 0 < dB)
    (hF : f.F.ncols ≤ dA) (hG : f.G.ncols ≤ dB) (hH : f.H.nrows ≤ dC) (X A B : Nat → Nat → Nat → Word) :
    ptrApplyBlmMzd dbg f ⟨dC, m, n, X⟩ ⟨dA, m, k, A⟩ ⟨dB, k, n, B⟩ = (ptrApplyBlmMzd? f m k n X A B).map fun x => ⟨dC, m, n, x⟩ := by
  unfold ptrApplyBlmMzd ptrApplyBlmMzd? blmAssert
  rw [assert_eq ⟨hc, hg⟩, Option.bind_some, need_eq ⟨hA, hB⟩, Option.bind_some, if_neg (not_not.2 ⟨hc, hg⟩)]
  refine forC_mapM (fun x => (⟨dC, m, n, x⟩ : Arr)) _ _ f.F.nrows (fun i x hi => ?_) X
  rw [blmSelect_eq hF hi, Option.bind_some, blmSelect_eq hG (by omega), Option.bind_some, pmul_eq, Option.bind_some]
  dsimp only
  refine forC_mapM (fun x => (⟨dC, m, n, x⟩ : Arr)) _ _ f.H.nrows (fun j x hj => ?_) x
  have er : mRead f.H j i = some (bitAt f.H.w j i) := mRead_eq (nr := f.H.nrows) (nc := f.H.ncols) f.H.w hj (by omega)
  rw [er, Option.bind_some]
  by_cases hb : bitAt f.H.w j i = true
  · rw [if_pos hb, if_pos hb]
    exact ptrAddModred_eq (ff := none) (show j < dC by omega) x _
  · rw [if_neg hb, if_neg hb]; rfl

theorem djbApply_gen {len vlen nr0 nc0 nr nc : Nat} {F : Nat → Nat → Word} {prog : List DjbOp} (hp : DjbComputes nr0 nc0 F prog) (hl : nr0 ≤ len) (hv0 : nc0 ≤ vlen)
    {v v' : Nat → Nat → Nat → Word} (hv : ∀ j, j < vlen → v j = v' j) (W : Nat → Nat → Nat → Word) :
    djbApply nr0 prog ⟨len, nr, nc, W⟩ ⟨vlen, nr, nc, v⟩ = some ⟨len, nr, nc, djbApplyPtr nr nc prog W v'⟩ := by
  unfold djbApply djbApplyPtr
  rw [djbFold_eq hv prog.reverse (fun o ho => ?_) ((fun _ => true), W)]
  · rfl
  · rw [List.mem_reverse] at ho
    have h1 := hp.target o ho
    have h2 := hp.source o ho
    refine ⟨h1, by omega, ?_⟩
    by_cases hc : o.fromSource = true
    · rw [if_pos hc] at h2 ⊢; omega
    · rw [if_neg hc] at h2 ⊢; omega

theorem ptrApplyBlm_gen (dbg : Bool) {f : Blm} (hc : f.H.ncols = f.F.nrows) (hg : f.F.nrows = f.G.nrows) (hd : DjbOk f) {dA dB dC m k n : Nat} (hA : 0 < dA) (hB : 0 < dB)
    (hF : f.F.ncols ≤ dA) (hG : f.G.ncols ≤ dB) (hH : f.H.nrows ≤ dC) (X A B : Nat → Nat → Nat → Word) :
    ptrApplyBlm dbg f ⟨dC, m, n, X⟩ ⟨dA, m, k, A⟩ ⟨dB, k, n, B⟩ = (ptrApplyBlm? f m k n X A B).map fun x => ⟨dC, m, n, x⟩ := by
  unfold ptrApplyBlm ptrApplyBlm?
  cases hf : f.djb with
  | none => exact ptrApplyBlmMzd_eq dbg hc hg hA hB hF hG hH X A B
  | some q =>
    obtain ⟨pf, pg, ph⟩ := q
    obtain ⟨d1, d2, d3⟩ := hd pf pg ph hf
    rw [← hg] at d2; rw [hc] at d3
    dsimp only
    unfold ptrApplyBlmDjb ptrApplyBlmDjb? blmAssert
    rw [assert_eq ⟨hc, hg⟩, Option.bind_some, need_eq (Or.inr ⟨hA, hB⟩), Option.bind_some, if_neg (not_not.2 ⟨hc, hg⟩), ← hg]
    rw [djbApply_gen d1 le_rfl hF (fun _ _ => rfl), Option.bind_some, djbApply_gen d2 le_rfl hG (fun _ _ => rfl), Option.bind_some]
    generalize hT1 : djbApplyPtr m k pf (fun _ => zeroW) A = T1
    generalize hT2 : djbApplyPtr k n pg (fun _ => zeroW) B = T2
    have key : ∀ N, N ≤ f.F.nrows → ∃ x, forC (fun i (t0 : Arr) => (t0.get i).bind fun c => ((⟨f.F.nrows, m, k, T1⟩ : Arr).get i).bind fun a =>
        ((⟨f.F.nrows, k, n, T2⟩ : Arr).get i).bind fun b => (pmul c a b).bind fun c => t0.put i c) N ⟨f.F.nrows, m, n, fun _ => zeroW⟩ =
        some ⟨f.F.nrows, m, n, x⟩ ∧ (∀ j, j < N → x j = mzdMul m k n zeroW (T1 j) (T2 j)) ∧ ∀ j, N ≤ j → x j = zeroW := by
      intro N
      induction N with
      | zero => intro _; exact ⟨_, rfl, fun j hj => absurd hj (Nat.not_lt_zero j), fun _ _ => rfl⟩
      | succ N ih =>
        intro hN
        obtain ⟨x, e, h1, h2⟩ := ih (by omega)
        refine ⟨setSlice x N (mzdMul m k n zeroW (T1 N) (T2 N)), ?_, ?_, ?_⟩
        · rw [forC, e, Option.bind_some, get_eq _ (by omega), Option.bind_some, get_eq _ (by omega), Option.bind_some, get_eq _ (by omega), Option.bind_some,
            pmul_eq, Option.bind_some, put_eq _ _ (by omega), h2 N le_rfl]
        · intro j hj
          unfold setSlice
          by_cases hjN : j = N
          · rw [if_pos hjN, hjN]
          · rw [if_neg hjN]; exact h1 j (by omega)
        · intro j hj
          unfold setSlice
          rw [if_neg (by omega)]; exact h2 j (by omega)
    obtain ⟨x, e, h1, -⟩ := key f.F.nrows le_rfl
    rw [e, Option.bind_some, djbApply_gen d3 hH le_rfl h1]
    rfl

/-! ### products of polynomials -/

section poly
variable {C A B : MzdPoly}

theorem parr_fits (hf : PolyFits C A B) : parr C = ⟨C.depth, A.nrows, B.ncols, C.x⟩ ∧ parr B = ⟨B.depth, A.ncols, B.ncols, B.x⟩ := by
  obtain ⟨h1, h2, h3⟩ := hf
  unfold parr
  rw [h1, h2, h3]
  exact ⟨rfl, rfl⟩

theorem polyAddmulNaive_eq (hf : PolyFits C A B) (hd : A.depth + B.depth - 1 ≤ C.depth) : polyAddmulNaive C A B = mzdPolyAddmulNaive? C A B := by
  obtain ⟨e1, e2⟩ := parr_fits hf
  unfold polyAddmulNaive mzdPolyAddmulNaive?
  rw [e1, e2, show parr A = ⟨A.depth, A.nrows, A.ncols, A.x⟩ from rfl]
  rw [forC_mapM (fun x => (⟨C.depth, A.nrows, B.ncols, x⟩ : Arr)) _ (fun i x => forNM (fun j x =>
    if i + j < C.depth ∧ PolyFits C A B then some (setSlice x (i + j) (mzdAddmul A.nrows A.ncols B.ncols (x (i + j)) (A.x i) (B.x j))) else none) B.depth x), Option.map_map]
  · rfl
  intro i x hi
  refine forC_mapM (fun x => (⟨C.depth, A.nrows, B.ncols, x⟩ : Arr)) _ _ _ (fun j x hj => ?_) x
  rw [if_pos ⟨by omega, hf⟩, get_eq _ (by omega), Option.bind_some, get_eq _ hi, Option.bind_some, get_eq _ hj, Option.bind_some, paddmul_eq, Option.bind_some,
    put_eq _ _ (by omega), Option.map_some]

theorem polyAddmulKara_eq (dbg : Bool) (hf : PolyFits C A B) (hAB : A.depth = B.depth) (h1 : 1 ≤ A.depth) (h16 : A.depth ≤ 16) (hd : A.depth + B.depth - 1 ≤ C.depth) :
    polyAddmulKara dbg C A B = mzdPolyAddmulKara? C A B := by
  obtain ⟨e1, e2⟩ := parr_fits hf
  unfold polyAddmulKara mzdPolyAddmulKara?
  have hn : ¬ (A.depth = 0 ∨ 16 < A.depth) := by omega
  rw [assert_eq hAB, Option.bind_some, if_neg (not_not.2 hAB), if_neg hn, if_neg (not_not.2 ⟨hf, by omega⟩), e1, e2, ← hAB,
    show parr A = ⟨A.depth, A.nrows, A.ncols, A.x⟩ from rfl]
  by_cases hd1 : A.depth = 1
  · rw [if_pos hd1, if_pos hd1, get_eq _ (by omega), Option.bind_some, get_eq _ (by omega), Option.bind_some, get_eq _ (by omega), Option.bind_some, paddmul_eq,
      Option.bind_some, put_eq _ _ (by omega), Option.map_some]
  · rw [if_neg hd1, if_neg hd1, ptrAddmulKaratsuba_eq (ff := none) (by omega) h16 (by omega) (fun t ht => show t < C.depth by omega), Option.map_map]
    rfl

theorem polyAddmulBlm_eq (dbg : Bool) {f : Blm} (hf : PolyFits C A B) (h1 : 1 ≤ A.depth) (h2 : 1 ≤ B.depth) (hc : f.H.ncols = f.F.nrows) (hg : f.F.nrows = f.G.nrows)
    (hd : DjbOk f) (hF : f.F.ncols = A.depth) (hG : f.G.ncols = B.depth) (hH : f.H.nrows ≤ C.depth) : polyAddmulBlm dbg C A B f = mzdPolyAddmulBlm? C A B f := by
  obtain ⟨e1, e2⟩ := parr_fits hf
  unfold polyAddmulBlm mzdPolyAddmulBlm?
  rw [assert_eq ⟨hF, hG⟩, Option.bind_some, if_neg (not_not.2 ⟨hF, hG⟩), if_neg (not_not.2 ⟨hf, hH⟩), e1, e2, show parr A = ⟨A.depth, A.nrows, A.ncols, A.x⟩ from rfl,
    ptrApplyBlm_gen dbg hc hg hd (by omega) (by omega) (by omega) (by omega) hH, Option.map_map]
  rfl

theorem polyProductInit_eq (h : A.depth + B.depth < 2 ^ 31) (h1 : 1 ≤ A.depth + B.depth) :
    polyProductInit A B = some (mzdPolyInit (A.depth + B.depth - 1) A.nrows B.ncols) := by
  unfold polyProductInit polyInit
  rw [int_eq h, Option.bind_some, int_eq (by omega), Option.bind_some]

end poly

/-! ### evaluation and interpolation -/

section ext
variable {ff : Gf2e} [IsField ff] {m k n fid d : Nat}

theorem sliceAddmulMzd_eqv {S : Slice} (hS : Sd ff m n fid S) (a : Elem ff) (W : Nat → Nat → Word) :
    Eqv (Sd ff m n fid) (sliceAddmulMzd S a.1 ⟨m, n, W⟩) (some (mzdSliceAddmulMzd S a.1 W)) := by
  have h16 := deg_le (ff := ff)
  constructor
  · unfold sliceAddmulMzd mzdSliceAddmulMzd
    rw [hS.arr_eq, hS.depth_eq, hS.nrows_eq, hS.ncols_eq, forC_map (fun x => (⟨ff.degree, m, n, x⟩ : Arr)) _
      (fun i x => if a.1 &&& twoPow i ≠ 0#64 then setSlice x i (mzdAdd m n (x i) (x i) W) else x)]
    · rfl
    intro i x hi
    rw [shl_eq (by omega), Option.bind_some]
    show (if a.1 &&& twoPow i ≠ 0#64 then _ else _) = some (Arr.mk _ _ _ (if a.1 &&& twoPow i ≠ 0#64 then _ else _))
    by_cases hb : a.1 &&& twoPow i ≠ 0#64
    · rw [if_pos hb, if_pos hb]; exact addAt_eq x W hi
    · rw [if_neg hb, if_neg hb]
  · intro r e
    obtain ⟨X, rfl, rfl, rfl, rfl⟩ := hS
    rw [addmulMzd_spack] at e
    cases e
    exact ⟨_, rfl, rfl, rfl, rfl⟩

theorem sliceMulNew_eqv {A B : Slice} (hA : Sd ff m k fid A) (hB : Sd ff k n fid B) :
    Eqv (Sd ff m n fid) (sliceMulKaratsubaNew A B) (mzdSliceMulKaratsubaNew? A B) := by
  unfold sliceMulKaratsubaNew mzdSliceMulKaratsubaNew?
  have hc : ¬ (A.ncols ≠ B.nrows ∨ A.fid ≠ B.fid) := by rw [hA.ncols_eq, hB.nrows_eq, hA.fid_eq, hB.fid_eq]; simp
  rw [if_neg hc, if_neg hc, hA.ff_eq, hA.fid_eq, hA.nrows_eq, hB.ncols_eq, sliceInit_eq, Option.bind_some]
  exact sliceAddmulKara_eqv sinit_sd hA hB

theorem Dm.writeElem' {A : Mzed} (h : Dm ff m n fid A) (hs : Sm ff n) {i j : Nat} (hi : i < m) (hj : j < n) (x : Elem ff) :
    Chk.writeElem A i j x.1 = some (mzedWriteElem A i j x.1) ∧ Dm ff m n fid (mzedWriteElem A i j x.1) := by
  obtain ⟨X, rfl, rfl, rfl, rfl⟩ := h
  refine ⟨Chk.writeElem_eq (pack_rep X) hi hj ?_ x.1, _, M4rie.write_pack _ _ _ _, rfl, rfl, rfl⟩
  exact hs

theorem ext1Acc_eqv {P : MzdPoly} {S : Slice} (hm : P.nrows = m) (hn : P.ncols = n) (hS : Sd ff m n fid S) (a : Elem ff) (j : Nat) :
    Eqv (Sd ff m n fid) (ext1Acc P S a.1 j) (some (if j < P.depth then mzdSliceAddmulMzd S a.1 (P.x j) else S)) := by
  unfold ext1Acc
  by_cases hj : j < P.depth
  · rw [if_pos hj, if_pos hj, show parr P = ⟨P.depth, m, n, P.x⟩ by unfold parr; rw [hm, hn], get_eq _ hj, Option.bind_some]
    exact sliceAddmulMzd_eqv hS a _
  · rw [if_neg hj, if_neg hj]
    exact Eqv.pure hS

/-- the variables of the inner loop -/
def EvalOk (ff : Gf2e) [IsField ff] (m k n fid d : Nat) (s : Ext1State) : Prop :=
  Dm ff d d fid s.Phi ∧ Sd ff m k fid s.a ∧ Sd ff k n fid s.b ∧ ∃ x : Elem ff, s.acc = x.1

variable {A B : MzdPoly}

theorem ext1Step_eqv (hs : Sm ff d) (hA : A.nrows = m ∧ A.ncols = k) (hB : B.nrows = k ∧ B.ncols = n) {i j : Nat} (hi : i < d) (hi' : i < 2 ^ ff.degree) (hj : j < d)
    {s : Ext1State} (h : EvalOk ff m k n fid d s) : Eqv (EvalOk ff m k n fid d) (ext1Step A B i j s) (M4rie.ext1Step A B i j s) := by
  obtain ⟨h1, h2, h3, x, hx⟩ := h
  unfold ext1Step M4rie.ext1Step
  obtain ⟨e1, d1⟩ := h1.writeElem' hs hi hj x
  obtain ⟨e2, d2⟩ := ext1Acc_eqv hA.1 hA.2 h2 x j
  obtain ⟨e3, d3⟩ := ext1Acc_eqv hB.1 hB.2 h3 x j
  rw [h2.ff_eq, hx, e1, Option.bind_some, e2, Option.bind_some, e3, Option.bind_some, fmul_eq ff (by have := deg_le (ff := ff); omega), gf2eMul_pt hi', Option.bind_some, Option.map_some]
  exact ⟨rfl, fun r e => by cases e; exact ⟨d1, d2 _ rfl, d3 _ rfl, pt i * x, rfl⟩⟩

theorem ext1Eval_eqv (hs : Sm ff d) (hA : A.nrows = m ∧ A.ncols = k) (hB : B.nrows = k ∧ B.ncols = n) {i : Nat} (hi : i < d) (hi' : i < 2 ^ ff.degree)
    {s : (Mzed × Slice × Slice) × (Nat → Slice)} (h1 : Dm ff d d fid s.1.1) (h2 : Sd ff m k fid s.1.2.1) (h3 : Sd ff k n fid s.1.2.2)
    (hc : ∀ q, q < i → Sd ff m n fid (s.2 q)) :
    Eqv (fun t => Dm ff d d fid t.1.1 ∧ Sd ff m k fid t.1.2.1 ∧ Sd ff k n fid t.1.2.2 ∧ ∀ q, q < i + 1 → Sd ff m n fid (t.2 q)) (ext1Eval A B d i s) (M4rie.ext1Eval A B d i s) := by
  unfold ext1Eval M4rie.ext1Eval
  rw [sliceSetUi_eq h2, Option.bind_some, sliceSetUi_eq h3, Option.bind_some]
  obtain ⟨e1, k1⟩ := forC_M (EvalOk ff m k n fid d) (ext1Step A B i) (M4rie.ext1Step A B i) d ⟨s.1.1, mzdSliceSetUi s.1.2.1 0#64, mzdSliceSetUi s.1.2.2 0#64, 1#64⟩
    ⟨h1, setUi_zero_sd h2, setUi_zero_sd h3, 1, rfl⟩ fun j s hj h => ext1Step_eqv hs hA hB hi hi' hj h
  rw [e1]
  cases ht : forNM (M4rie.ext1Step A B i) d ⟨s.1.1, mzdSliceSetUi s.1.2.1 0#64, mzdSliceSetUi s.1.2.2 0#64, 1#64⟩ with
  | none => exact ⟨rfl, fun r e => by cases e⟩
  | some t =>
    obtain ⟨q1, q2, q3, -⟩ := k1 t ht
    rw [Option.bind_some, Option.bind_some]
    obtain ⟨e2, k2⟩ := sliceMulNew_eqv q2 q3
    rw [e2]
    cases hci : mzdSliceMulKaratsubaNew? t.a t.b with
    | none => exact ⟨rfl, fun r e => by cases e⟩
    | some ci =>
      rw [Option.bind_some, need_eq hi, Option.bind_some, Option.map_some]
      refine ⟨rfl, fun r e => ?_⟩
      cases e
      refine ⟨q1, q2, q3, fun q hq => ?_⟩
      show Sd ff m n fid (if q = i then ci else s.2 q)
      by_cases hqi : q = i
      · rw [if_pos hqi]; exact k2 _ hci
      · rw [if_neg hqi]; exact hc q (by omega)

/-- `forC_M` with an invariant that depends on the number of iterations -/
theorem forC_MI {σ : Type} (I : Nat → σ → Prop) (f g : Nat → σ → Option σ) : ∀ (n : Nat) (s : σ), I 0 s →
    (∀ i s, i < n → I i s → f i s = g i s ∧ ∀ s', g i s = some s' → I (i + 1) s') → forC f n s = forNM g n s ∧ ∀ s', forNM g n s = some s' → I n s' := by
  intro n
  induction n with
  | zero => intro s hs _; exact ⟨rfl, fun s' h => by obtain rfl := Option.some.inj h; exact hs⟩
  | succ n ih =>
    intro s hs h
    obtain ⟨e, k⟩ := ih s hs fun i s hi => h i s (by omega)
    rw [forC, forNM, e]
    cases hr : forNM g n s with
    | none => exact ⟨rfl, fun s' h => by cases h⟩
    | some t =>
      rw [Option.bind_some, Option.bind_some]
      exact h n t (by omega) (k t hr)

theorem ext1Interp_eq (dbg : Bool) {Rho : Mzed} {N : Nat → Nat → Elem ff} (hR : Rep Rho N) (hr : Rho.nrows = d) (hcl : Rho.ncols = d) (hs : Sm ff d) {c : Nat → Slice}
    (hc : ∀ q, q < d → Sd ff m n fid (c q)) {T : Slice} (hT : Sd ff m n fid T) {dC : Nat} (hd : d ≤ dC) (X : Nat → Nat → Nat → Word) :
    ext1Interp dbg Rho c d (T, ⟨dC, m, n, X⟩) = (M4rie.ext1Interp Rho c m n d (T, X)).map fun s => (s.1, ⟨dC, m, n, s.2⟩) := by
  have hb : Rho.bitCols < 2 ^ 31 := by
    have : Dm ff d d Rho.fid Rho := by have := rep_dm hR; rwa [hr, hcl] at this
    rw [this.bitCols_eq]; exact hs
  have hdeg := deg_pos (ff := ff)
  let E : Slice × (Nat → Nat → Nat → Word) → Slice × Arr := fun s => (s.1, ⟨dC, m, n, s.2⟩)
  have inner : ∀ i, i < d → ∀ q, q ≤ d → ∀ s : Slice × (Nat → Nat → Nat → Word), Sd ff m n fid s.1 →
      forC (fun j (s : Slice × Arr) => (readElem Rho i j).bind fun x => (need (j < d)).bind fun _ => (sliceMulScalar dbg s.1 x (c j)).bind fun tmp =>
        ((arr tmp).get 0).bind fun t0 => (addAt s.2 i t0).bind fun X => some (tmp, X)) q (E s) =
      (forNM (fun j (s : Slice × (Nat → Nat → Nat → Word)) => (mzdSliceMulScalar? s.1 (mzedReadElem Rho i j) (c j)).map fun tmp =>
        (tmp, setSlice s.2 i (mzdAdd m n (s.2 i) (s.2 i) (tmp.x 0)))) q s).map E ∧
      ∀ t, forNM (fun j (s : Slice × (Nat → Nat → Nat → Word)) => (mzdSliceMulScalar? s.1 (mzedReadElem Rho i j) (c j)).map fun tmp =>
        (tmp, setSlice s.2 i (mzdAdd m n (s.2 i) (s.2 i) (tmp.x 0)))) q s = some t → Sd ff m n fid t.1 := by
    intro i hi q
    induction q with
    | zero => intro _ s hs; exact ⟨rfl, fun t e => by cases e; exact hs⟩
    | succ q ih =>
      intro hq s hss
      obtain ⟨e, k⟩ := ih (by omega) s hss
      rw [forC, forNM, e]
      cases ht : forNM (fun j (s : Slice × (Nat → Nat → Nat → Word)) => (mzdSliceMulScalar? s.1 (mzedReadElem Rho i j) (c j)).map fun tmp =>
        (tmp, setSlice s.2 i (mzdAdd m n (s.2 i) (s.2 i) (tmp.x 0)))) q s with
      | none => exact ⟨rfl, fun t e => by cases e⟩
      | some t =>
        have st := k t ht
        have er := readElem_eq hR (i := i) (j := q) (by omega) (by omega) hb
        have er' : mzedReadElem Rho i q = (N i q).1 := hR.read i q
        rw [Option.map_some, Option.bind_some, Option.bind_some, er, Option.bind_some, need_eq (by omega), Option.bind_some, er']
        obtain ⟨e2, k2⟩ := sliceMulScalar_eqv dbg st (hc q (by omega)) (N i q)
        rw [show (E t).1 = t.1 from rfl, e2]
        cases htm : mzdSliceMulScalar? t.1 (N i q).1 (c q) with
        | none => exact ⟨rfl, fun t e => by cases e⟩
        | some tmp =>
          have s2 := k2 tmp htm
          rw [Option.bind_some, s2.arr_eq, get_eq _ (by omega), Option.bind_some, show (E t).2 = ⟨dC, m, n, t.2⟩ from rfl, addAt_eq _ _ (by omega), Option.bind_some, Option.map_some,
            Option.map_some]
          exact ⟨rfl, fun r e => by cases e; exact s2⟩
  unfold ext1Interp M4rie.ext1Interp
  have outer : ∀ q, q ≤ d → ∀ s : Slice × (Nat → Nat → Nat → Word), Sd ff m n fid s.1 →
      forC (fun i s => forC (fun j (s : Slice × Arr) => (readElem Rho i j).bind fun x => (need (j < d)).bind fun _ => (sliceMulScalar dbg s.1 x (c j)).bind fun tmp =>
        ((arr tmp).get 0).bind fun t0 => (addAt s.2 i t0).bind fun X => some (tmp, X)) d s) q (E s) =
      (forNM (fun i s => forNM (fun j (s : Slice × (Nat → Nat → Nat → Word)) => (mzdSliceMulScalar? s.1 (mzedReadElem Rho i j) (c j)).map fun tmp =>
        (tmp, setSlice s.2 i (mzdAdd m n (s.2 i) (s.2 i) (tmp.x 0)))) d s) q s).map E ∧
      ∀ t, forNM (fun i s => forNM (fun j (s : Slice × (Nat → Nat → Nat → Word)) => (mzdSliceMulScalar? s.1 (mzedReadElem Rho i j) (c j)).map fun tmp =>
        (tmp, setSlice s.2 i (mzdAdd m n (s.2 i) (s.2 i) (tmp.x 0)))) d s) q s = some t → Sd ff m n fid t.1 := by
    intro q
    induction q with
    | zero => intro _ s hs; exact ⟨rfl, fun t e => by cases e; exact hs⟩
    | succ q ih =>
      intro hq s hss
      obtain ⟨e, k⟩ := ih (by omega) s hss
      rw [forC, forNM, e]
      cases ht : forNM (fun i s => forNM (fun j (s : Slice × (Nat → Nat → Nat → Word)) => (mzdSliceMulScalar? s.1 (mzedReadElem Rho i j) (c j)).map fun tmp =>
        (tmp, setSlice s.2 i (mzdAdd m n (s.2 i) (s.2 i) (tmp.x 0)))) d s) q s with
      | none => exact ⟨rfl, fun t e => by cases e⟩
      | some t =>
        rw [Option.map_some, Option.bind_some, Option.bind_some]
        exact inner q (by omega) d le_rfl t (k t ht)
  exact (outer d le_rfl (T, X) hT).1

theorem mulSlice0_eq {S : Slice} (hS : Sd ff m n fid S) (P Q : Nat → Nat → Word) :
    mulSlice0 S ⟨m, k, P⟩ ⟨k, n, Q⟩ = some { S with x := setSlice S.x 0 (mzdMul m k n (S.x 0) P Q) } := by
  have hdeg := deg_pos (ff := ff)
  unfold mulSlice0
  rw [hS.arr_eq, get_eq _ (by omega), Option.bind_some, pmul_eq, Option.bind_some, put_eq _ _ (by omega), Option.map_some]

theorem sumSlice0_eq {S : Slice} (hS : Sd ff m n fid S) {P : MzdPoly} (h1 : P.nrows = m) (h2 : P.ncols = n) :
    sumSlice0 S P = some { S with x := forN (fun i x => setSlice x 0 (mzdAdd m n (x 0) (x 0) (P.x i))) P.depth S.x } := by
  have hdeg := deg_pos (ff := ff)
  unfold sumSlice0
  rw [hS.arr_eq, show parr P = ⟨P.depth, m, n, P.x⟩ by unfold parr; rw [h1, h2], forC_map (fun x => (⟨ff.degree, m, n, x⟩ : Arr)) _
    (fun i x => setSlice x 0 (mzdAdd m n (x 0) (x 0) (P.x i)))]
  · rfl
  intro i x hi
  rw [get_eq _ hi, Option.bind_some, addAt_eq _ _ (by omega)]

theorem set0_sd (W : Nat → Nat → Word) : Sd ff m n fid { mzdSliceInit ff fid m n with x := setSlice (mzdSliceInit ff fid m n).x 0 W } :=
  ⟨_, bits_spack fid m n W, rfl, rfl, rfl⟩

theorem sum_sd (P : Nat → Nat → Nat → Word) (q : Nat) :
    Sd ff m n fid { mzdSliceInit ff fid m n with x := forN (fun i x => setSlice x 0 (mzdAdd m n (x 0) (x 0) (P i))) q (mzdSliceInit ff fid m n).x } := by
  obtain ⟨W, e, -⟩ := sumAll_bits m n q P
  have : (forN (fun i x => setSlice x 0 (mzdAdd m n (x 0) (x 0) (P i))) q (mzdSliceInit ff fid m n).x) = setSlice (mzdSliceInit ff fid m n).x 0 W := e
  rw [this]
  exact set0_sd W

theorem ext1Body_eq (dbg : Bool) {cb : Codebook} (hcb : cb.Ok ff.degree) (optK : Nat) (small : Bool) (fid : Nat) {C : MzdPoly} (hf : PolyFits C A B)
    (h1 : 1 ≤ A.depth) (h2 : 1 ≤ B.depth) (hd2 : 2 ≤ d) (hdC : d ≤ C.depth) (hde : d ≤ 2 ^ ff.degree) (hs : Sm ff (d + d)) :
    ext1Body dbg cb optK small ff fid C A B d = M4rie.ext1Body cb optK small ff fid C A B d := by
  have hs1 : Sm ff d := hs.mono (by omega)
  have hdeg := deg_pos (ff := ff)
  obtain ⟨e1, e2⟩ := parr_fits hf
  obtain ⟨w0, dm0⟩ := init_dm (fid := fid) (m := d) hs1
  obtain ⟨w1, dm1⟩ := dm0.writeElem' hs1 (i := 0) (j := 0) (by omega) (by omega) (1 : Elem ff)
  obtain ⟨w2, dm2⟩ := forC_eq (fun _ P => Dm ff d d fid P) (fun i Phi => writeElem Phi 1 i (1 : Elem ff).1) (fun i Phi => mzedWriteElem Phi 1 i (1 : Elem ff).1) d _ dm1
    fun i P hi hP => hP.writeElem' hs1 (by omega) hi 1
  have w1' : writeElem (mzedInit ff fid d d) 0 0 1#64 = some (mzedWriteElem (mzedInit ff fid d d) 0 0 1#64) := w1
  have w2' : forC (fun i Phi => writeElem Phi 1 i 1#64) d (mzedWriteElem (mzedInit ff fid d d) 0 0 1#64) =
    some (forN (fun i Phi => mzedWriteElem Phi 1 i 1#64) d (mzedWriteElem (mzedInit ff fid d d) 0 0 1#64)) := w2
  have dm2' : Dm ff d d fid (forN (fun i Phi => mzedWriteElem Phi 1 i 1#64) d (mzedWriteElem (mzedInit ff fid d d) 0 0 1#64)) := dm2
  unfold ext1Body M4rie.ext1Body
  rw [sliceInit_eq, Option.bind_some, sliceInit_eq, Option.bind_some, w0, Option.bind_some, w1', Option.bind_some, need_eq (by omega), Option.bind_some, sliceInit_eq, Option.bind_some,
    e1, e2, show parr A = ⟨A.depth, A.nrows, A.ncols, A.x⟩ from rfl, get_eq _ (by omega), Option.bind_some, get_eq _ (by omega), Option.bind_some,
    mulSlice0_eq (ff := ff) (fid := fid) sinit_sd, Option.bind_some, w2', Option.bind_some, sumSlice0_eq (ff := ff) (fid := fid) sinit_sd rfl rfl, Option.bind_some,
    sumSlice0_eq (ff := ff) (fid := fid) sinit_sd rfl rfl, Option.bind_some, Option.bind_some]
  have sA := sum_sd (ff := ff) (m := A.nrows) (n := A.ncols) (fid := fid) A.x A.depth
  have sB := sum_sd (ff := ff) (m := B.nrows) (n := B.ncols) (fid := fid) B.x B.depth
  rw [sA.arr_eq, get_eq _ (by omega), Option.bind_some, sB.arr_eq, get_eq _ (by omega), Option.bind_some, ← hf.1, mulSlice0_eq (ff := ff) (fid := fid) sinit_sd, Option.bind_some]
  dsimp only
  rw [← hf.1] at sB
  generalize forN (fun i Phi => mzedWriteElem Phi 1 i 1#64) d (mzedWriteElem (mzedInit ff fid d d) 0 0 1#64) = Phi at dm2'
  obtain ⟨el, kl⟩ := forC_MI (fun i (s : (Mzed × Slice × Slice) × (Nat → Slice)) => Dm ff d d fid s.1.1 ∧ Sd ff A.nrows A.ncols fid s.1.2.1 ∧ Sd ff A.ncols B.ncols fid s.1.2.2 ∧
      ∀ q, q < i + 2 → Sd ff A.nrows B.ncols fid (s.2 q)) (fun i s => ext1Eval A B d (i + 2) s) (fun i s => M4rie.ext1Eval A B d (i + 2) s) (d - 2)
    ((Phi, { mzdSliceInit ff fid A.nrows A.ncols with x := forN (fun i x => setSlice x 0 (mzdAdd A.nrows A.ncols (x 0) (x 0) (A.x i))) A.depth (mzdSliceInit ff fid A.nrows A.ncols).x },
      { mzdSliceInit ff fid A.ncols B.ncols with x := forN (fun i x => setSlice x 0 (mzdAdd A.ncols B.ncols (x 0) (x 0) (B.x i))) B.depth (mzdSliceInit ff fid A.ncols B.ncols).x }), fun k => if k = 0 then
      { mzdSliceInit ff fid A.nrows B.ncols with x := setSlice (mzdSliceInit ff fid A.nrows B.ncols).x 0 (mzdMul A.nrows A.ncols B.ncols ((mzdSliceInit ff fid A.nrows B.ncols).x 0) (A.x 0) (B.x 0)) }
      else { mzdSliceInit ff fid A.nrows B.ncols with x := setSlice (mzdSliceInit ff fid A.nrows B.ncols).x 0 (mzdMul A.nrows A.ncols B.ncols ((mzdSliceInit ff fid A.nrows B.ncols).x 0)
        (forN (fun i x => setSlice x 0 (mzdAdd A.nrows A.ncols (x 0) (x 0) (A.x i))) A.depth (mzdSliceInit ff fid A.nrows A.ncols).x 0)
        (forN (fun i x => setSlice x 0 (mzdAdd A.ncols B.ncols (x 0) (x 0) (B.x i))) B.depth (mzdSliceInit ff fid A.ncols B.ncols).x 0)) })
    ⟨dm2', sA, sB, fun q hq => by dsimp only; split <;> exact set0_sd _⟩
    (fun i s hi h => ext1Eval_eqv hs1 ⟨rfl, rfl⟩ ⟨hf.1.symm, rfl⟩ (by omega) (by omega) h.1 h.2.1 h.2.2.1 h.2.2.2)
  rw [el]
  cases hl : forNM (fun i s => M4rie.ext1Eval A B d (i + 2) s) (d - 2)
    ((Phi, { mzdSliceInit ff fid A.nrows A.ncols with x := forN (fun i x => setSlice x 0 (mzdAdd A.nrows A.ncols (x 0) (x 0) (A.x i))) A.depth (mzdSliceInit ff fid A.nrows A.ncols).x },
      { mzdSliceInit ff fid A.ncols B.ncols with x := forN (fun i x => setSlice x 0 (mzdAdd A.ncols B.ncols (x 0) (x 0) (B.x i))) B.depth (mzdSliceInit ff fid A.ncols B.ncols).x }), fun k => if k = 0 then
      { mzdSliceInit ff fid A.nrows B.ncols with x := setSlice (mzdSliceInit ff fid A.nrows B.ncols).x 0 (mzdMul A.nrows A.ncols B.ncols ((mzdSliceInit ff fid A.nrows B.ncols).x 0) (A.x 0) (B.x 0)) }
      else { mzdSliceInit ff fid A.nrows B.ncols with x := setSlice (mzdSliceInit ff fid A.nrows B.ncols).x 0 (mzdMul A.nrows A.ncols B.ncols ((mzdSliceInit ff fid A.nrows B.ncols).x 0)
        (forN (fun i x => setSlice x 0 (mzdAdd A.nrows A.ncols (x 0) (x 0) (A.x i))) A.depth (mzdSliceInit ff fid A.nrows A.ncols).x 0)
        (forN (fun i x => setSlice x 0 (mzdAdd A.ncols B.ncols (x 0) (x 0) (B.x i))) B.depth (mzdSliceInit ff fid A.ncols B.ncols).x 0)) }) with
  | none => rw [Option.bind_none, Option.bind_none]
  | some s =>
    obtain ⟨q1, -, -, q4⟩ := kl s hl
    rw [Option.bind_some, Option.bind_some, invert_eq dbg hcb optK small q1 hs (by omega)]
    cases hR : mzedInvertNewtonJohn? cb optK small s.1.1 with
    | none => rw [Option.bind_none, Option.bind_none]
    | some Rho =>
      obtain ⟨X, eX, x1, x2, x3⟩ := q1
      rw [eX] at hR
      obtain ⟨⟨r1, r2⟩, N, hN, -⟩ := (Props.C37_invert hcb optK small (pack_rep X) (by show X.nrows = X.ncols; omega)).1 _ hR
      rw [Option.bind_some, Option.bind_some, Option.bind_some,
        ext1Interp_eq dbg (d := d) hN (r1.trans x1) (r2.trans x2) hs1 (fun q hq => q4 q (by omega)) sinit_sd hdC, Option.map_map]
      rfl

end ext
end M4rie.Chk
