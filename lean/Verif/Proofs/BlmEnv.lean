import Verif.Proofs.BlmMul

/-! The assumptions about M4RI in blm.c can be met. -/

namespace M4rie
open Polynomial Spec Finset

theorem rankProfile_step (m : Nat) (C : Nat → Nat → Word) : ∀ r, r ≤ m →
    (∃ rank P, RankProfile m C rank P) ∨ ∃ P : Nat → Nat, (∀ i, i < m → i ≤ P i ∧ P i < m) ∧ (∀ i, r ≤ i → P i = i) ∧
      LinearIndependent (ZMod 2) fun k : Fin r => gf2Row m C (rowPerm P m k) := by
  intro r
  induction r with
  | zero => intro _; exact Or.inr ⟨fun i => i, fun i hi => ⟨le_rfl, hi⟩, fun _ _ => rfl, linearIndependent_empty_type⟩
  | succ r ih =>
    intro hr
    rcases ih (by omega) with h | ⟨P, h1, h2, h3⟩
    · exact Or.inl h
    · by_cases hall : ∀ i, i < m → gf2Row m C i ∈ Submodule.span (ZMod 2) (Set.range fun k : Fin r => gf2Row m C (rowPerm P m k))
      · exact Or.inl ⟨r, P, by omega, h1, h3, hall⟩
      · push Not at hall
        obtain ⟨i, hi, hn⟩ := hall
        set q := (rowPerm P m).symm i with hq
        have eq : rowPerm P m q = i := Equiv.apply_symm_apply _ _
        have hqm : q < m := (rowPerm_iff (fun i hi => (h1 i hi).2) q).2 (by rw [eq]; exact hi)
        have hrq : r ≤ q := by
          by_contra hc
          apply hn
          rw [← eq]
          exact Submodule.subset_span ⟨⟨q, by omega⟩, rfl⟩
        have em : rowPerm P m = rowPerm P r := by
          have := rowPerm_id (P := P) (r := r) (m - r) fun i hi _ => h2 i hi
          rwa [show r + (m - r) = m by omega] at this
        set P' : Nat → Nat := fun i => if i = r then q else P i with hP'
        have e1 : rowPerm P' r = rowPerm P r := rowPerm_congr r fun i hi => if_neg (by omega)
        have e2 : rowPerm P' m = rowPerm P r * Equiv.swap r q := by
          have := rowPerm_id (P := P') (r := r + 1) (m - (r + 1)) fun i hi _ => by
            rw [hP']; simp only; rw [if_neg (by omega), h2 i (by omega)]
          rw [show r + 1 + (m - (r + 1)) = m by omega] at this
          rw [this]
          show rowPerm P' r * Equiv.swap r (P' r) = _
          rw [e1]
          congr 2
          exact if_pos rfl
        refine Or.inr ⟨P', fun i hi => ?_, fun i hi => ?_, ?_⟩
        · rw [hP']; simp only
          by_cases h : i = r
          · rw [if_pos h, h]; exact ⟨hrq, hqm⟩
          · rw [if_neg h]; exact h1 i hi
        · rw [hP']; simp only
          rw [if_neg (by omega)]; exact h2 i (by omega)
        · have hlast : rowPerm P' m r = i := by
            rw [e2]
            show rowPerm P r (Equiv.swap r q r) = i
            rw [Equiv.swap_apply_left, ← em, eq]
          have hfirst : ∀ k, k < r → rowPerm P' m k = rowPerm P m k := by
            intro k hk
            rw [e2, em]
            show rowPerm P r (Equiv.swap r q k) = _
            rw [Equiv.swap_apply_of_ne_of_ne (by omega) (by omega)]
          have hsnoc : (fun k : Fin (r + 1) => gf2Row m C (rowPerm P' m k)) =
              Fin.snoc (α := fun _ => Fin m → ZMod 2) (fun k : Fin r => gf2Row m C (rowPerm P m k)) (gf2Row m C i) := by
            funext k
            refine Fin.lastCases ?_ (fun k => ?_) k
            · rw [Fin.snoc_last, Fin.val_last, hlast]
            · rw [Fin.snoc_castSucc, Fin.val_castSucc, hfirst k k.2]
          rw [hsnoc]
          exact linearIndependent_finSnoc.2 ⟨h3, hn⟩

theorem rankProfile_exists (m : Nat) (C : Nat → Nat → Word) : ∃ rank P, RankProfile m C rank P := by
  rcases rankProfile_step m C m le_rfl with h | ⟨P, h1, h2, h3⟩
  · exact h
  · refine ⟨m, P, le_rfl, h1, h3, fun i _ => ?_⟩
    rw [h3.span_eq_top_of_card_eq_finrank' (by rw [Fintype.card_fin, Module.finrank_fin_fun])]
    exact Submodule.mem_top

/-- the program that adds the selected sources one by one -/
def naiveDjb (nr nc : Nat) (F : Nat → Nat → Word) : List DjbOp :=
  (List.range nr).flatMap fun t => ((List.range nc).filter fun j => bitAt F t j).map fun j => ⟨t, j, true⟩

theorem naive_row (V : Nat → Bool) (t0 t : Nat) (W : Nat → Bool) : ∀ L : List Nat,
    (L.map fun j => (⟨t0, j, true⟩ : DjbOp)).foldr (djbBit V) W t = if t = t0 then (W t).xor ((L.map V).foldr Bool.xor false) else W t := by
  intro L
  induction L with
  | nil => by_cases h : t = t0 <;> simp [h]
  | cons j L ih =>
    rw [List.map_cons, List.foldr_cons]
    show (if t = t0 then Bool.xor _ (V j) else _) = _
    rw [ih]
    by_cases h : t = t0
    · rw [if_pos h, if_pos h, if_pos h, List.map_cons, List.foldr_cons]
      cases W t <;> cases V j <;> cases (L.map V).foldr Bool.xor false <;> rfl
    · rw [if_neg h, if_neg h, if_neg h]

theorem filter_xor (p V : Nat → Bool) (n : Nat) : (((List.range n).filter p).map V).foldr Bool.xor false = xorRange (fun j => p j && V j) n := by
  have key : ∀ (L : List Nat) (b : Bool), (L.map V).foldr Bool.xor b = ((L.map V).foldr Bool.xor false).xor b := by
    intro L b
    induction L with
    | nil => simp
    | cons x L ih => rw [List.map_cons, List.foldr_cons, List.foldr_cons, ih]; cases V x <;> cases b <;> cases (L.map V).foldr Bool.xor false <;> rfl
  rw [xorRange_sum]
  induction n with
  | zero => rfl
  | succ n ih =>
    rw [List.range_succ, List.filter_append, List.map_append, List.foldr_append, sum_range_succ, ← ih, key]
    show _ = Bool.xor _ _
    congr 1
    cases hp : p n <;> simp [hp]

theorem naive_eval (V : Nat → Bool) (nr nc : Nat) (F : Nat → Nat → Word) (t : Nat) (ht : t < nr) :
    (naiveDjb nr nc F).foldr (djbBit V) (fun _ => false) t = xorRange (fun j => bitAt F t j && V j) nc := by
  have key : ∀ n W, ((List.range n).flatMap fun t => ((List.range nc).filter fun j => bitAt F t j).map fun j => (⟨t, j, true⟩ : DjbOp)).foldr
      (djbBit V) W t = if t < n then (W t).xor (xorRange (fun j => bitAt F t j && V j) nc) else W t := by
    intro n
    induction n with
    | zero => intro W; rfl
    | succ n ih =>
      intro W
      rw [List.range_succ, List.flatMap_append, List.foldr_append, ih]
      have : ([n].flatMap fun t => ((List.range nc).filter fun j => bitAt F t j).map fun j => (⟨t, j, true⟩ : DjbOp)) =
          ((List.range nc).filter fun j => bitAt F n j).map fun j => (⟨n, j, true⟩ : DjbOp) := by simp
      rw [this, naive_row]
      by_cases h1 : t = n
      · rw [if_neg (by omega), if_pos h1, if_pos (by omega), filter_xor (fun j => bitAt F n j), h1]
      · rw [if_neg h1]
        by_cases h2 : t < n
        · rw [if_pos h2, if_pos (by omega)]
        · rw [if_neg h2, if_neg (by omega)]
  rw [naiveDjb, key nr, if_pos ht]
  simp

theorem naive_ok (nr nc : Nat) (F : Nat → Nat → Word) : DjbComputes nr nc F (naiveDjb nr nc F) := by
  have hm : ∀ o ∈ naiveDjb nr nc F, o.target < nr ∧ o.source < nc ∧ o.fromSource = true := by
    intro o ho
    unfold naiveDjb at ho
    rw [List.mem_flatMap] at ho
    obtain ⟨t, ht, ho⟩ := ho
    rw [List.mem_map] at ho
    obtain ⟨j, hj, rfl⟩ := ho
    rw [List.mem_filter, List.mem_range] at hj
    exact ⟨List.mem_range.1 ht, hj.1, rfl⟩
  refine ⟨fun o ho => (hm o ho).1, fun o ho => by rw [(hm o ho).2.2]; exact (hm o ho).2.1, fun l o l' e hf => ?_, fun V t ht => naive_eval V nr nc F t ht⟩
  have := (hm o (by rw [e]; simp)).2.2
  rw [hf] at this; cases this

open Classical in
/-- the bits of the inverse -/
noncomputable def invBits (m : Nat) (C : Nat → Nat → Word) (i j : Nat) : Bool :=
  if h : i < m ∧ j < m then decide ((gf2Mat m m C)⁻¹ ⟨i, h.1⟩ ⟨j, h.2⟩ = 1) else false

theorem invBits_spec (m : Nat) (C : Nat → Nat → Word) (i j : Fin m) : gf2 (invBits m C i j) = (gf2Mat m m C)⁻¹ i j := by
  unfold invBits
  rw [dif_pos ⟨i.2, j.2⟩]
  have key : ∀ x : ZMod 2, ∀ _ : Decidable (x = 1), gf2 (decide (x = 1)) = x := by
    intro x inst
    by_cases h : x = 1
    · rw [decide_eq_true h, h]; rfl
    · have : ∀ x : ZMod 2, x ≠ 1 → x = 0 := by decide
      rw [decide_eq_false h, this x h]; rfl
  exact key _ _

/-- an implementation of the M4RI functions -/
noncomputable def stdBlmEnv : BlmEnv where
  ple m C := ((rankProfile_exists m C).choose, (rankProfile_exists m C).choose_spec.choose)
  inv m C := ofBits (invBits m C)
  djb := naiveDjb

theorem stdBlmEnv_ok : BlmEnvOk stdBlmEnv := by
  refine ⟨fun m C => (rankProfile_exists m C).choose_spec.choose_spec, fun m C h => ?_, naive_ok⟩
  have : gf2Mat m m (stdBlmEnv.inv m C) = (gf2Mat m m C)⁻¹ := by
    ext i j
    have e : stdBlmEnv.inv m C = ofBits (invBits m C) := rfl
    unfold gf2Mat gf2Entry
    rw [e, bitAt_ofBits]
    exact invBits_spec m C i j
  rw [this]
  exact Matrix.mul_nonsing_inv _ ((Matrix.isUnit_iff_isUnit_det _).1 h)

end M4rie
