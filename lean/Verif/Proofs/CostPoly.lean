import Verif.Model.CostPoly
import Verif.Proofs.Cost

/-! # Logs of products: bilinear maps and polynomials -/

namespace M4rie
open Spec

variable {α : Type}

theorem logs_none (l : List Product) : Logs (quietly (none : Option α)) none l := fun _ => rfl

/-- loops with an invariant -/
theorem forN_logs_inv (P : α → Prop) (f : Nat → α → Logged α) (g : Nat → α → Option α) (l : List Product)
    (h : ∀ i a, P a → Logs (f i a) (g i a) l) (hP : ∀ i a b, P a → g i a = some b → P b) :
    ∀ n a, P a → Logs (forNL f n a) (forNM g n a) (List.replicate n l).flatten ∧ ∀ b, forNM g n a = some b → P b
  | 0, a, ha => ⟨logs_pure a, fun b hb => by cases hb; exact ha⟩
  | n + 1, a, ha => by
    obtain ⟨h1, h2⟩ := forN_logs_inv P f g l h hP n a ha
    refine ⟨Logs.congr (logs_bind h1 fun b hb => h n b (h2 b hb)) (by rw [List.replicate_succ', List.flatten_append]; simp), fun b hb => ?_⟩
    obtain ⟨c, hc, hb⟩ := Option.bind_eq_some_iff.1 hb
    exact hP n c b (h2 c hc) hb

/-! ### blm.c -/

theorem ptrApplyBlmMzd_logs (f : Blm) (m k n : Nat) (X A B : Nat → Nat → Nat → Word) :
    Logs (ptrApplyBlmMzdL f m k n X A B) (ptrApplyBlmMzd? f m k n X A B) (List.replicate f.F.nrows (.gf2 m k n)) := by
  unfold ptrApplyBlmMzdL ptrApplyBlmMzd?
  by_cases h : ¬ (f.H.ncols = f.F.nrows ∧ f.F.nrows = f.G.nrows)
  · rw [if_pos h, if_pos h]; exact logs_none _
  rw [if_neg h, if_neg h]
  exact Logs.congr (forN_logs _ _ [.gf2 m k n] (fun i X => logs_then _ (logs_quietly _)) _ _) (by simp)

theorem ptrApplyBlmDjb_logs (f : Blm) (pf pg ph : List DjbOp) (m k n : Nat) (X A B : Nat → Nat → Nat → Word) :
    Logs (ptrApplyBlmDjbL f pf pg ph m k n X A B) (ptrApplyBlmDjb? f pf pg ph m k n X A B) (List.replicate f.F.nrows (.gf2 m k n)) := by
  unfold ptrApplyBlmDjbL ptrApplyBlmDjb?
  by_cases h : ¬ (f.H.ncols = f.F.nrows ∧ f.F.nrows = f.G.nrows)
  · rw [if_pos h, if_pos h]; exact logs_none _
  rw [if_neg h, if_neg h]
  have e : ∀ N, forNM (fun _ _ => some ()) N () = some () := by
    intro N
    induction N with
    | zero => rfl
    | succ N ih => show (forNM _ N ()).bind _ = _; rw [ih]; rfl
  have hl := forN_logs (fun _ _ => logProduct (.gf2 m k n)) (fun _ _ => some ()) [.gf2 m k n] (fun _ _ => logs_product _) f.F.nrows ()
  rw [e] at hl
  refine Logs.congr (logs_map hl _) (by simp)

theorem ptrApplyBlm_logs (f : Blm) (m k n : Nat) (X A B : Nat → Nat → Nat → Word) :
    Logs (ptrApplyBlmL f m k n X A B) (ptrApplyBlm? f m k n X A B) (List.replicate f.F.nrows (.gf2 m k n)) := by
  unfold ptrApplyBlmL ptrApplyBlm?
  rcases f.djb with _ | ⟨pf, pg, ph⟩
  · exact ptrApplyBlmMzd_logs f m k n X A B
  · exact ptrApplyBlmDjb_logs f pf pg ph m k n X A B

/-- the number of products of the map that is used -/
def UsesMap (env : BlmEnv) (fuel : Nat) (ff : Gf2e) (f : Option Blm) (N : Nat) : Prop :=
  match f with
  | some f => f.F.nrows = N
  | none => ∀ g, blmInitCrt? env fuel (some ff) ff.degree ff.degree (crtSingle ff.degree) true = some g → g.F.nrows = N

theorem sliceMulBlmRaw_logs {env : BlmEnv} {fuel : Nat} (C A B : Slice) {f : Option Blm} {N : Nat} (hN : UsesMap env fuel C.ff f N) :
    Logs (mzdSliceMulBlmRawL env fuel C A B f) (mzdSliceMulBlmRaw? env fuel C A B f) (List.replicate N (.gf2 A.nrows A.ncols B.ncols)) := by
  unfold mzdSliceMulBlmRawL mzdSliceMulBlmRaw?
  refine Logs.congr (logs_bind (logs_quietly _) (l' := List.replicate N (.gf2 A.nrows A.ncols B.ncols)) fun g hg => ?_) (List.nil_append _)
  have e : g.F.nrows = N := by
    cases f with
    | some f => cases hg; exact hN
    | none =>
      by_cases h : C.ff.degree > 16
      · simp only [if_pos h] at hg; cases hg
      · simp only [if_neg h] at hg; exact hN g hg
  exact logs_map (Logs.congr (ptrApplyBlm_logs g _ _ _ _ _ _) (by rw [e])) _

theorem sliceMulBlm_logs {env : BlmEnv} {fuel : Nat} (C A B : Slice) {f : Option Blm} {N : Nat} (hN : UsesMap env fuel C.ff f N) :
    Logs (mzdSliceMulBlmL env fuel C A B f) (mzdSliceMulBlm? env fuel C A B f) (List.replicate N (.gf2 A.nrows A.ncols B.ncols)) := by
  unfold mzdSliceMulBlmL mzdSliceMulBlm?
  by_cases h1 : A.ncols ≠ B.nrows ∨ A.fid ≠ B.fid
  · rw [if_pos h1, if_pos h1]; exact logs_none _
  rw [if_neg h1, if_neg h1]
  by_cases h2 : C.fid ≠ A.fid ∨ C.nrows ≠ A.nrows ∨ C.ncols ≠ B.ncols
  · rw [if_pos h2, if_pos h2]; exact logs_none _
  rw [if_neg h2, if_neg h2]
  exact sliceMulBlmRaw_logs _ A B hN

theorem sliceAddmulBlm_logs {env : BlmEnv} {fuel : Nat} (C A B : Slice) {f : Option Blm} {N : Nat} (hN : UsesMap env fuel A.ff f N) :
    Logs (mzdSliceAddmulBlmL env fuel C A B f) (mzdSliceAddmulBlm? env fuel C A B f) (List.replicate N (.gf2 A.nrows A.ncols B.ncols)) := by
  unfold mzdSliceAddmulBlmL mzdSliceAddmulBlm?
  by_cases h1 : A.ncols ≠ B.nrows ∨ A.fid ≠ B.fid
  · rw [if_pos h1, if_pos h1]; exact logs_none _
  rw [if_neg h1, if_neg h1]
  by_cases h2 : C.fid ≠ A.fid ∨ C.nrows ≠ A.nrows ∨ C.ncols ≠ B.ncols
  · rw [if_pos h2, if_pos h2]; exact logs_none _
  rw [if_neg h2, if_neg h2]
  exact Logs.congr (logs_bind (sliceMulBlmRaw_logs (mzdSliceInit A.ff A.fid A.nrows B.ncols) A B hN) fun T _ => logs_quietly _) (List.append_nil _)

/-! ### mzd_poly.h -/

theorem polyNaive_logs (C A B : MzdPoly) : Logs (mzdPolyAddmulNaiveL C A B) (mzdPolyAddmulNaive? C A B)
    (List.replicate (A.depth * B.depth) (.gf2 A.nrows A.ncols B.ncols)) := by
  refine Logs.congr (logs_map (forN_logs _ _ (List.replicate B.depth (.gf2 A.nrows A.ncols B.ncols)) (fun i x => ?_) _ _) _)
    (by rw [List.flatten_replicate_replicate])
  refine Logs.congr (forN_logs _ _ [.gf2 A.nrows A.ncols B.ncols] (fun j x => ?_) _ _) (by simp)
  beta_reduce
  by_cases h : i + j < C.depth ∧ PolyFits C A B
  · rw [if_pos h, if_pos h]; exact logs_then _ (logs_pure _)
  · rw [if_neg h, if_neg h]; exact logs_none _

theorem polyKara_logs (C A B : MzdPoly) : Logs (mzdPolyAddmulKaraL C A B) (mzdPolyAddmulKara? C A B)
    (List.replicate (documentedProducts A.depth) (.gf2 A.nrows A.ncols B.ncols)) := by
  unfold mzdPolyAddmulKaraL mzdPolyAddmulKara?
  by_cases h1 : A.depth ≠ B.depth
  · rw [if_pos h1, if_pos h1]; exact logs_none _
  rw [if_neg h1, if_neg h1]
  by_cases h2 : A.depth = 0 ∨ 16 < A.depth
  · rw [if_pos h2, if_pos h2]; exact logs_none _
  rw [if_neg h2, if_neg h2]
  by_cases h3 : ¬ (PolyFits C A B ∧ 2 * A.depth - 1 ≤ C.depth)
  · rw [if_pos h3, if_pos h3]; exact logs_none _
  rw [if_neg h3, if_neg h3]
  by_cases h4 : A.depth = 1
  · rw [if_pos h4, if_pos h4, h4]; exact logs_then _ (logs_pure _)
  · rw [if_neg h4, if_neg h4]
    push Not at h2
    exact logs_map (ptrKara_logs (by omega) h2.2 _ _ _ _ _ _ _) _

theorem polyBlm_logs (C A B : MzdPoly) (f : Blm) : Logs (mzdPolyAddmulBlmL C A B f) (mzdPolyAddmulBlm? C A B f)
    (List.replicate f.F.nrows (.gf2 A.nrows A.ncols B.ncols)) := by
  unfold mzdPolyAddmulBlmL mzdPolyAddmulBlm?
  by_cases h1 : ¬ (f.F.ncols = A.depth ∧ f.G.ncols = B.depth)
  · rw [if_pos h1, if_pos h1]; exact logs_none _
  rw [if_neg h1, if_neg h1]
  by_cases h2 : ¬ (PolyFits C A B ∧ f.H.nrows ≤ C.depth)
  · rw [if_pos h2, if_pos h2]; exact logs_none _
  rw [if_neg h2, if_neg h2]
  exact logs_map (ptrApplyBlm_logs f _ _ _ _ _ _) _

theorem polyCrt_logs {env : BlmEnv} {fuel : Nat} (C : Option MzdPoly) (A B : MzdPoly) {N : Nat}
    (hN : ∀ p f, crtInit? A.depth B.depth = some p → blmInitCrt? env fuel none A.depth B.depth p true = some f → f.F.nrows = N) :
    Logs (mzdPolyAddmulCrtL env fuel C A B) (mzdPolyAddmulCrt? env fuel C A B) (List.replicate N (.gf2 A.nrows A.ncols B.ncols)) := by
  refine Logs.congr (logs_bind (logs_quietly _) (l' := List.replicate N (.gf2 A.nrows A.ncols B.ncols)) fun p hp => ?_) (List.nil_append _)
  refine Logs.congr (logs_bind (logs_quietly _) (l' := List.replicate N (.gf2 A.nrows A.ncols B.ncols)) fun f hf => ?_) (List.nil_append _)
  have e := hN p f hp hf
  cases C with
  | some C => exact logs_map (Logs.congr (polyBlm_logs C A B f) (by rw [e])) _
  | none => exact logs_map (Logs.congr (polyBlm_logs _ A B f) (by rw [e])) _

/-! ### mzd_poly.c -/

theorem sliceMulNew_logs (A B : Slice) (h2 : 2 ≤ A.ff.degree) (h16 : A.ff.degree ≤ 16) : Logs (mzdSliceMulKaratsubaNewL A B) (mzdSliceMulKaratsubaNew? A B)
    (List.replicate (documentedProducts A.ff.degree) (.gf2 A.nrows A.ncols B.ncols)) := by
  unfold mzdSliceMulKaratsubaNewL mzdSliceMulKaratsubaNew?
  by_cases h1 : A.ncols ≠ B.nrows ∨ A.fid ≠ B.fid
  · rw [if_pos h1, if_pos h1]; exact logs_none _
  rw [if_neg h1, if_neg h1]
  exact sliceKara_logs _ A B h2 h16

/-- the dimensions and the field of the two evaluations -/
structure EvalDims (ff : Gf2e) (m k n : Nat) (a b : Slice) : Prop where
  ffA : a.ff = ff
  rows : a.nrows = m
  inner : a.ncols = k
  cols : b.ncols = n

theorem ext1Step_dims {ff : Gf2e} {m k n i : Nat} {A B : MzdPoly} : ∀ d (s t : Ext1State), EvalDims ff m k n s.a s.b →
    forNM (ext1Step A B i) d s = some t → EvalDims ff m k n t.a t.b
  | 0, s, t, h, e => by cases e; exact h
  | d + 1, s, t, h, e => by
    obtain ⟨u, hu, e⟩ := Option.bind_eq_some_iff.1 e
    have ih := ext1Step_dims d s u h hu
    obtain ⟨acc, -, rfl⟩ := Option.map_eq_some_iff.1 e
    refine ⟨?_, ?_, ?_, ?_⟩
    · show Slice.ff (if d < A.depth then _ else _) = _; split_ifs <;> exact ih.ffA
    · show Slice.nrows (if d < A.depth then _ else _) = _; split_ifs <;> exact ih.rows
    · show Slice.ncols (if d < A.depth then _ else _) = _; split_ifs <;> exact ih.inner
    · show Slice.ncols (if d < B.depth then _ else _) = _; split_ifs <;> exact ih.cols

theorem ext1Eval_logs {ff : Gf2e} (h2 : 2 ≤ ff.degree) (h16 : ff.degree ≤ 16) {m k n : Nat} (A B : MzdPoly) (d i : Nat)
    (s : (Mzed × Slice × Slice) × (Nat → Slice)) (h : EvalDims ff m k n s.1.2.1 s.1.2.2) :
    Logs (ext1EvalL A B d i s) (ext1Eval A B d i s) (List.replicate (documentedProducts ff.degree) (.gf2 m k n)) ∧
    ∀ t, ext1Eval A B d i s = some t → EvalDims ff m k n t.1.2.1 t.1.2.2 := by
  have hs : EvalDims ff m k n (mzdSliceSetUi s.1.2.1 0#64) (mzdSliceSetUi s.1.2.2 0#64) := ⟨h.ffA, h.rows, h.inner, h.cols⟩
  constructor
  · refine Logs.congr (logs_bind (logs_quietly _) (l' := List.replicate (documentedProducts ff.degree) (.gf2 m k n)) fun t ht => ?_) (List.nil_append _)
    have hd := ext1Step_dims d _ t hs ht
    exact logs_map (Logs.congr (sliceMulNew_logs t.a t.b (by rw [hd.ffA]; exact h2) (by rw [hd.ffA]; exact h16))
      (by rw [hd.ffA, hd.rows, hd.inner, hd.cols])) _
  · intro t ht
    obtain ⟨u, hu, ht⟩ := Option.bind_eq_some_iff.1 ht
    obtain ⟨ci, -, rfl⟩ := Option.map_eq_some_iff.1 ht
    exact ext1Step_dims d _ u hs hu

theorem ext1Body_logs (cb : Codebook) (optK : Nat) (small : Bool) {ff : Gf2e} (h2 : 2 ≤ ff.degree) (h16 : ff.degree ≤ 16) (fid : Nat) (C A B : MzdPoly)
    (d : Nat) : Logs (ext1BodyL cb optK small ff fid C A B d) (ext1Body cb optK small ff fid C A B d)
      (List.replicate (2 + (d - 2) * documentedProducts ff.degree) (.gf2 A.nrows A.ncols B.ncols)) := by
  have hloop := fun s hs => (forN_logs_inv (fun s => EvalDims ff A.nrows A.ncols B.ncols s.1.2.1 s.1.2.2) (fun i s => ext1EvalL A B d (i + 2) s)
    (fun i s => ext1Eval A B d (i + 2) s) (List.replicate (documentedProducts ff.degree) (.gf2 A.nrows A.ncols B.ncols))
    (fun i a ha => (ext1Eval_logs h2 h16 A B d (i + 2) a ha).1) (fun i a b ha hb => (ext1Eval_logs h2 h16 A B d (i + 2) a ha).2 b hb) (d - 2) s hs).1
  refine Logs.congr (l := .gf2 A.nrows A.ncols B.ncols :: .gf2 A.nrows A.ncols B.ncols ::
    ((List.replicate (d - 2) (List.replicate (documentedProducts ff.degree) (.gf2 A.nrows A.ncols B.ncols))).flatten ++ ([] ++ []))) ?_ (by
      rw [List.flatten_replicate_replicate, List.append_nil, List.append_nil, Nat.add_comm]; rfl)
  refine logs_then _ (logs_then _ ?_)
  refine logs_bind (hloop _ ⟨rfl, rfl, rfl, rfl⟩) fun s _ => ?_
  exact logs_bind (logs_quietly _) fun Rho _ => logs_map (logs_quietly _) _

end M4rie
