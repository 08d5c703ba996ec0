import Verif.Proofs.BlmMaps
import Verif.Proofs.Perm
import Mathlib.LinearAlgebra.Matrix.ToLin
import Mathlib.LinearAlgebra.Basis.VectorSpace
import Mathlib.LinearAlgebra.Matrix.NonsingularInverse

/-! `_blm_finish_polymult`: the matrix `H`. -/

namespace M4rie
open Polynomial Spec Finset

theorem bitAt_transpose (nr nc : Nat) (A : Nat → Nat → Word) (i p : Nat) :
    bitAt (mzdTranspose nr nc A) i p = if i < nc ∧ p < nr then bitAt A p i else false := by
  unfold mzdTranspose; rw [bitAt_ofBits]

theorem gf2_and (a b : Bool) : gf2 (a && b) = gf2 a * gf2 b := map_mul gf2Hom a b

/-- the new row -/
theorem finRow_entry {m fn gn : Nat} (F G : Nat → Nat → Word) {v w : Nat} (hv : v < fn) (hw : w < gn) (r : Nat) (C : Nat → Nat → Word)
    (i : Nat) {c : Nat} (hc : c < m) :
    gf2Entry (finRow ((m + 63) / 64) (mzdTranspose m fn F) (mzdTranspose m gn G) v w r C) i c =
      if i = r then gf2Entry F c v * gf2Entry G c w else gf2Entry C i c := by
  have hcw : c / 64 < (m + 63) / 64 := by omega
  show gf2 ((if i = r ∧ c / 64 < (m + 63) / 64 then _ else _ : Word).getLsbD (c % 64)) = _
  by_cases h : i = r
  · rw [if_pos ⟨h, hcw⟩, if_pos h, BitVec.getLsbD_and]
    show gf2 (bitAt (mzdTranspose m fn F) v c && bitAt (mzdTranspose m gn G) w c) = _
    rw [bitAt_transpose, bitAt_transpose, if_pos ⟨hv, hc⟩, if_pos ⟨hw, hc⟩, gf2_and]; rfl
  · rw [if_neg (by tauto), if_neg h]; rfl

theorem permPiv_eq (m : Nat) (piv : Nat → Nat × Nat) (P : Nat → Nat) (i : Nat) : permPiv m piv P i = piv (rowPerm P m i) := by
  unfold permPiv
  induction m generalizing i with
  | zero => rfl
  | succ m ih =>
    rw [forN]
    show (if i = m then _ else if i = P m then _ else _) = piv (rowPerm P m (Equiv.swap m (P m) i))
    rw [ih, ih, ih]
    by_cases h1 : i = m
    · rw [if_pos h1, h1, Equiv.swap_apply_left]
    · rw [if_neg h1]
      by_cases h2 : i = P m
      · rw [if_pos h2, h2, Equiv.swap_apply_right]
      · rw [if_neg h2, Equiv.swap_apply_of_ne_of_ne h1 h2]

theorem rowPerm_lt' {m : Nat} {P : Nat → Nat} (h : ∀ i, i < m → i ≤ P i ∧ P i < m) : ∀ n, n ≤ m → ∀ i, i < m → rowPerm P n i < m := by
  intro n
  induction n with
  | zero => intro _ i hi; exact hi
  | succ n ih =>
    intro hn i hi
    show rowPerm P n (Equiv.swap n (P n) i) < m
    apply ih (by omega)
    by_cases h1 : i = n
    · rw [h1, Equiv.swap_apply_left]; exact (h n (by omega)).2
    · by_cases h2 : i = P n
      · rw [h2, Equiv.swap_apply_right]; omega
      · rw [Equiv.swap_apply_of_ne_of_ne h1 h2]; exact hi

theorem finLoop_done {env : BlmEnv} {m fn gn : Nat} {FT GT : Nat → Nat → Word} {fuel : Nat} {s : FinState} (h : ¬ s.rank < m) :
    finLoop env m fn gn FT GT fuel s = some s := by
  rw [finLoop.eq_def]; exact if_pos h

theorem finLoop_zero {env : BlmEnv} {m fn gn : Nat} {FT GT : Nat → Nat → Word} {s : FinState} (h : s.rank < m) :
    finLoop env m fn gn FT GT 0 s = none := by
  rw [finLoop.eq_def]; exact if_neg (not_not.2 h)

theorem finLoop_succ {env : BlmEnv} {m fn gn : Nat} {FT GT : Nat → Nat → Word} {fuel : Nat} {s : FinState} (h : s.rank < m) :
    finLoop env m fn gn FT GT (fuel + 1) s = (finStep env m fn gn FT GT s).bind (finLoop env m fn gn FT GT fuel) := by
  rw [finLoop.eq_def]; exact if_neg (not_not.2 h)

/-- row `k` of `C` belongs to the pair `piv k`, for `k < r` -/
def RowsFrom (m fn gn : Nat) (F G : Nat → Nat → Word) (C : Nat → Nat → Word) (piv : Nat → Nat × Nat) (r : Nat) : Prop :=
  ∀ k, k < r → (piv k).1 < fn ∧ (piv k).2 < gn ∧ gf2Row m C k = pairVec m F G (piv k).1 (piv k).2 ∧ (piv k).1 ≤ (piv k).2

/-- the state of the search -/
structure FinInv (m fn gn : Nat) (F G : Nat → Nat → Word) (s : FinState) : Prop where
  vw : s.v ≤ s.w
  rows : RowsFrom m fn gn F G s.C s.piv s.r
  le : s.rank < m → s.r < m
  full : ¬ s.rank < m → s.r = m ∧ LinearIndependent (ZMod 2) fun k : Fin m => gf2Row m s.C k

theorem finNext_le (fn gn : Nat) {v w : Nat} (h : v ≤ w) : (finNext fn gn v w).1 ≤ (finNext fn gn v w).2 := by
  unfold finNext
  split
  · exact le_rfl
  · exact Nat.le_succ_of_le h

section
variable {env : BlmEnv} (henv : BlmEnvOk env) {m fn gn : Nat} {F G : Nat → Nat → Word}
include henv

theorem finStep_inv {s s' : FinState} (hs : FinInv m fn gn F G s) (hr : s.rank < m)
    (h : finStep env m fn gn (mzdTranspose m fn F) (mzdTranspose m gn G) s = some s') : FinInv m fn gn F G s' := by
  unfold finStep at h
  by_cases hb : s.v < fn ∧ s.w < gn
  · rw [if_neg (not_not.2 hb)] at h
    simp only at h
    set C := finRow ((m + 63) / 64) (mzdTranspose m fn F) (mzdTranspose m gn G) s.v s.w s.r s.C with hC
    have hrows : RowsFrom m fn gn F G C (fun k => if k = s.r then (s.v, s.w) else s.piv k) (s.r + 1) := by
      intro k hk
      simp only
      by_cases hkr : k = s.r
      · rw [if_pos hkr]
        refine ⟨hb.1, hb.2, ?_, hs.vw⟩
        funext c
        show gf2Entry C k c = _
        rw [hC, finRow_entry F G hb.1 hb.2 _ _ _ c.2, if_pos hkr]; rfl
      · rw [if_neg hkr]
        obtain ⟨h1, h2, h3, h4⟩ := hs.rows k (by omega)
        refine ⟨h1, h2, ?_, h4⟩
        rw [← h3]
        funext c
        show gf2Entry C k c = _
        rw [hC, finRow_entry F G hb.1 hb.2 _ _ _ c.2, if_neg hkr]; rfl
    by_cases hm : s.r + 1 = m
    · rw [if_pos hm] at h
      cases h
      have hp := henv.ple m C
      set rank := (env.ple m C).1
      set P := (env.ple m C).2
      have hrow : ∀ k, gf2Row m (mzdApplyPLeft m m C ⟨m, P⟩) k = gf2Row m C (rowPerm P m k) := by
        intro k
        funext c
        show gf2 (bitAt _ _ _) = gf2 (bitAt _ _ _)
        rw [applyPLeft_bit, if_pos c.2, min_self]
      have hpl : ∀ k, k < m → rowPerm P m k < m := fun k hk => rowPerm_lt' hp.perm m le_rfl k hk
      refine ⟨finNext_le fn gn hs.vw, ?_, ?_, ?_⟩
      · intro k hk
        have hkm : k < m := by
          have hk' : k < if rank < m then rank else m := hk
          by_cases hrm : rank < m
          · rw [if_pos hrm] at hk'; omega
          · rw [if_neg hrm] at hk'; exact hk'
        have hpk := permPiv_eq m (fun k => if k = s.r then (s.v, s.w) else s.piv k) P k
        show (permPiv m (fun k => if k = s.r then (s.v, s.w) else s.piv k) P k).1 < fn ∧
          (permPiv m (fun k => if k = s.r then (s.v, s.w) else s.piv k) P k).2 < gn ∧ gf2Row m (mzdApplyPLeft m m C ⟨m, P⟩) k =
            pairVec m F G (permPiv m (fun k => if k = s.r then (s.v, s.w) else s.piv k) P k).1
              (permPiv m (fun k => if k = s.r then (s.v, s.w) else s.piv k) P k).2 ∧
            (permPiv m (fun k => if k = s.r then (s.v, s.w) else s.piv k) P k).1 ≤
              (permPiv m (fun k => if k = s.r then (s.v, s.w) else s.piv k) P k).2
        rw [hpk, hrow]
        exact hrows _ (by rw [hm]; exact hpl k hkm)
      · intro hrm
        show (if rank < m then rank else m) < m
        rw [if_pos (show rank < m from hrm)]
        exact hrm
      · intro hrm
        have e : rank = m := by
          have : ¬ rank < m := hrm
          have := hp.le
          omega
        refine ⟨if_neg hrm, ?_⟩
        show LinearIndependent (ZMod 2) fun k : Fin m => gf2Row m (mzdApplyPLeft m m C ⟨m, P⟩) k
        have hi := hp.indep
        simp only [hrow]
        have key : ∀ n, n = m → LinearIndependent (ZMod 2) (fun k : Fin n => gf2Row m C (rowPerm P m k)) →
            LinearIndependent (ZMod 2) (fun k : Fin m => gf2Row m C (rowPerm P m k)) := by
          rintro n rfl h; exact h
        exact key _ e hi
    · rw [if_neg hm] at h
      cases h
      exact ⟨finNext_le fn gn hs.vw, hrows, fun _ => by have := hs.le hr; show s.r + 1 < m; omega, fun hrm => absurd hr hrm⟩
  · rw [if_pos hb] at h; cases h

theorem finLoop_inv : ∀ (fuel : Nat) {s s' : FinState}, FinInv m fn gn F G s →
    finLoop env m fn gn (mzdTranspose m fn F) (mzdTranspose m gn G) fuel s = some s' → FinInv m fn gn F G s' ∧ ¬ s'.rank < m := by
  intro fuel
  induction fuel with
  | zero =>
    intro s s' hs h
    by_cases hr : s.rank < m
    · rw [finLoop_zero hr] at h; cases h
    · rw [finLoop_done hr] at h; cases h; exact ⟨hs, hr⟩
  | succ fuel ih =>
    intro s s' hs h
    by_cases hr : s.rank < m
    · rw [finLoop_succ hr] at h
      cases h1 : finStep env m fn gn (mzdTranspose m fn F) (mzdTranspose m gn G) s with
      | none => rw [h1] at h; cases h
      | some s1 =>
        rw [h1, Option.bind_some] at h
        exact ih (finStep_inv henv hs hr h1) h
    · rw [finLoop_done hr] at h; cases h; exact ⟨hs, hr⟩

theorem finInv_init : FinInv m fn gn F G ⟨zeroW, fun _ => (0, 0), 0, 0, 0, 0⟩ := by
  refine ⟨le_rfl, fun k hk => absurd hk (Nat.not_lt_zero k), fun h => h, fun h => ?_⟩
  have hm : m = 0 := by
    have : ¬ (0 : Nat) < m := h
    omega
  subst hm
  exact ⟨rfl, linearIndependent_empty_type⟩

end

/-! ### the matrix `H` -/

theorem sel_entry (piv : Nat → Nat × Nat) (i m : Nat) (l : Nat) :
    bitAt (forN (fun j a => if (piv j).1 + (piv j).2 = i then mzdWriteBit a 0 j true else a) m zeroW) 0 l =
      (decide (l < m) && decide ((piv l).1 + (piv l).2 = i)) := by
  induction m with
  | zero => rw [forN, bitAt_zeroW]; simp
  | succ m ih =>
    rw [forN]
    by_cases h : (piv m).1 + (piv m).2 = i
    · rw [if_pos h, bitAt_writeBit, ih]
      by_cases hl : l = m
      · subst hl; rw [if_pos ⟨rfl, rfl⟩, decide_eq_true h, decide_eq_true (by omega : l < l + 1)]; rfl
      · rw [if_neg (by tauto)]; congr 1; exact decide_eq_decide.2 (by omega)
    · rw [if_neg h, ih]
      by_cases hl : l = m
      · subst hl; rw [decide_eq_false h, Bool.and_false, Bool.and_false]
      · congr 1; exact decide_eq_decide.2 (by omega)

theorem writeRow_bits (b : Nat → Bool) (i m : Nat) (H : Nat → Nat → Word) (r c : Nat) :
    bitAt (forN (fun j H => mzdWriteBit H i j (b j)) m H) r c = if r = i ∧ c < m then b c else bitAt H r c := by
  induction m with
  | zero => rw [if_neg (by omega)]; rfl
  | succ m ih =>
    rw [forN, bitAt_writeBit, ih]
    by_cases h : r = i ∧ c = m
    · rw [if_pos h, if_pos (by omega), h.2]
    · rw [if_neg h]
      by_cases h2 : r = i ∧ c < m
      · rw [if_pos h2, if_pos (by omega)]
      · rw [if_neg h2, if_neg (by omega)]

/-- the matrix `H` before the reduction -/
def finH (m cn : Nat) (piv : Nat → Nat × Nat) (DT : Nat → Nat → Word) : Nat → Nat → Word :=
  forN (fun i H =>
    let a := forN (fun j a => if (piv j).1 + (piv j).2 = i then mzdWriteBit a 0 j true else a) m zeroW
    let b := mzdMul 1 m m zeroW a DT
    forN (fun j H => mzdWriteBit H i j (bitAt b 0 j)) m H) cn zeroW

theorem finH_entry (m cn : Nat) (piv : Nat → Nat × Nat) (D : Nat → Nat → Word) {i k : Nat} (hk : k < m) :
    gf2Entry (finH m cn piv (mzdTranspose m m D)) i k =
      if i < cn then ∑ l ∈ range m, (if (piv l).1 + (piv l).2 = i then 1 else 0) * gf2Entry D k l else 0 := by
  unfold finH
  induction cn with
  | zero => rw [if_neg (by omega)]; exact gf2_eq_zero.2 (bitAt_zeroW i k)
  | succ cn ih =>
    rw [forN]
    show gf2 (bitAt _ i k) = _
    rw [writeRow_bits]
    by_cases h : i = cn
    · rw [if_pos ⟨h, hk⟩, if_pos (by omega), mzdMul_bits _ _ _ _ _ _ ⟨by norm_num, hk⟩, ← gf2Hom_apply, map_sum]
      refine sum_congr rfl fun l hl => ?_
      rw [mem_range] at hl
      rw [map_mul, sel_entry, bitAt_transpose, if_pos ⟨hl, hk⟩, decide_eq_true hl, Bool.true_and, h]
      congr 1
      by_cases h2 : (piv l).1 + (piv l).2 = cn
      · rw [if_pos h2, decide_eq_true h2]; rfl
      · rw [if_neg h2, decide_eq_false h2]; rfl
    · rw [if_neg (by tauto)]
      have : gf2 _ = _ := ih
      rw [this]
      by_cases h2 : i < cn
      · rw [if_pos h2, if_pos (by omega)]
      · rw [if_neg h2, if_neg (by omega)]

theorem finalC_rows {m fn gn : Nat} {F G : Nat → Nat → Word} {piv : Nat → Nat × Nat} (hp : ∀ k, k < m → (piv k).1 < fn ∧ (piv k).2 < gn)
    (C : Nat → Nat → Word) (n : Nat) (hn : n ≤ m) (k : Nat) (hk : k < n) :
    gf2Row m (forN (fun r C => finRow ((m + 63) / 64) (mzdTranspose m fn F) (mzdTranspose m gn G) (piv r).1 (piv r).2 r C) n C) k =
      pairVec m F G (piv k).1 (piv k).2 := by
  induction n with
  | zero => omega
  | succ n ih =>
    rw [forN]
    funext c
    show gf2Entry _ k c = _
    obtain ⟨h1, h2⟩ := hp n (by omega)
    rw [finRow_entry F G h1 h2 _ _ _ c.2]
    by_cases h : k = n
    · rw [if_pos h, h]; rfl
    · rw [if_neg h]
      exact congrFun (ih (by omega) (by omega)) c

/-- `H` takes the value of `x^(v+w)` on the products of every pair `(v,w)` -/
theorem finH_exact {env : BlmEnv} (henv : BlmEnvOk env) {m fn gn : Nat} {F G : Nat → Nat → Word} {s : FinState}
    (hs : FinInv m fn gn F G s) (hfull : ¬ s.rank < m)
    (hk : ∀ l, Kills m fn gn F G l → prodPoly fn gn l = 0) {i v w : Nat} (hi : i < fn + gn - 1) (hv : v < fn) (hw : w < gn) :
    ∑ k ∈ range m, gf2Entry (finH m (fn + gn - 1) s.piv (mzdTranspose m m (env.inv m
      (forN (fun r C => finRow ((m + 63) / 64) (mzdTranspose m fn F) (mzdTranspose m gn G) (s.piv r).1 (s.piv r).2 r C) m s.C)))) i k *
        (gf2Entry F k v * gf2Entry G k w) = if v + w = i then 1 else 0 := by
  obtain ⟨hrm, hind⟩ := hs.full hfull
  have hrows : ∀ k, k < m → (s.piv k).1 < fn ∧ (s.piv k).2 < gn ∧ gf2Row m s.C k = pairVec m F G (s.piv k).1 (s.piv k).2 :=
    fun k hk => ⟨(hs.rows k (by omega)).1, (hs.rows k (by omega)).2.1, (hs.rows k (by omega)).2.2.1⟩
  set C := forN (fun r C => finRow ((m + 63) / 64) (mzdTranspose m fn F) (mzdTranspose m gn G) (s.piv r).1 (s.piv r).2 r C) m s.C with hC
  have hCrow : ∀ k, k < m → gf2Row m C k = pairVec m F G (s.piv k).1 (s.piv k).2 := fun k hk =>
    finalC_rows (fun k hk => ⟨(hrows k hk).1, (hrows k hk).2.1⟩) s.C m le_rfl k hk
  have hCM : ∀ k : Fin m, gf2Mat m m C k = pairVec m F G (s.piv k).1 (s.piv k).2 := fun k => hCrow k k.2
  have hind' : LinearIndependent (ZMod 2) (fun k : Fin m => gf2Mat m m C k) := by
    have : (fun k : Fin m => gf2Mat m m C k) = fun k : Fin m => gf2Row m s.C k := by
      funext k; rw [hCM k]; exact (hrows k k.2).2.2.symm
    rw [this]; exact hind
  have hunit : IsUnit (gf2Mat m m C) := Matrix.linearIndependent_rows_iff_isUnit.1 hind'
  have hinv := henv.inv m C hunit
  set D := env.inv m C
  -- the pair (v,w) is a combination of the pivots
  have hspan : Submodule.span (ZMod 2) (Set.range fun k : Fin m => gf2Mat m m C k) = ⊤ :=
    hind'.span_eq_top_of_card_eq_finrank' (by rw [Fintype.card_fin, Module.finrank_fin_fun])
  obtain ⟨μ, hμ⟩ := (Submodule.mem_span_range_iff_exists_fun (ZMod 2)).1 (show pairVec m F G v w ∈ Submodule.span (ZMod 2)
    (Set.range fun k : Fin m => gf2Mat m m C k) by rw [hspan]; exact Submodule.mem_top)
  -- the combination of the pairs vanishes
  set lam : Nat → Nat → ZMod 2 := fun a b => (if a = v ∧ b = w then 1 else 0) + ∑ k : Fin m, μ k * if a = (s.piv k).1 ∧ b = (s.piv k).2 then 1 else 0
    with hlam
  have hsum : ∀ f : Nat → Nat → ZMod 2, ∑ a ∈ range fn, ∑ b ∈ range gn, lam a b * f a b =
      f v w + ∑ k : Fin m, μ k * f (s.piv k).1 (s.piv k).2 := by
    intro f
    have single : ∀ v w, v < fn → w < gn → ∑ a ∈ range fn, ∑ b ∈ range gn, (if a = v ∧ b = w then 1 else 0) * f a b = f v w := by
      intro v w hv hw
      rw [sum_eq_single v, sum_eq_single w]
      · rw [if_pos ⟨rfl, rfl⟩, one_mul]
      · intro b _ hb; rw [if_neg (by tauto), zero_mul]
      · intro hh; exact absurd (mem_range.2 hw) hh
      · intro a _ ha
        refine Finset.sum_eq_zero fun b _ => ?_
        rw [if_neg (by tauto), zero_mul]
      · intro hh; exact absurd (mem_range.2 hv) hh
    have e1 : ∀ a b, lam a b * f a b = (if a = v ∧ b = w then 1 else 0) * f a b +
        ∑ k : Fin m, μ k * ((if a = (s.piv k).1 ∧ b = (s.piv k).2 then 1 else 0) * f a b) := by
      intro a b
      rw [hlam]
      simp only
      rw [add_mul, sum_mul]
      congr 1
      refine Finset.sum_congr rfl fun k _ => ?_
      ring
    simp only [e1, sum_add_distrib]
    rw [single v w hv hw]
    congr 1
    have e2 : ∀ a ∈ range fn, ∑ b ∈ range gn, ∑ k : Fin m, μ k * ((if a = (s.piv k).1 ∧ b = (s.piv k).2 then 1 else 0) * f a b) =
        ∑ k : Fin m, ∑ b ∈ range gn, μ k * ((if a = (s.piv k).1 ∧ b = (s.piv k).2 then 1 else 0) * f a b) := fun a _ => sum_comm
    rw [Finset.sum_congr rfl e2, sum_comm]
    refine Finset.sum_congr rfl fun k _ => ?_
    simp only [← mul_sum]
    rw [single _ _ (hrows k k.2).1 (hrows k k.2).2.1]
  have hkill : Kills m fn gn F G lam := by
    intro k hkm
    rw [hsum fun a b => gf2Entry F k a * gf2Entry G k b]
    have := congrFun hμ ⟨k, hkm⟩
    rw [Finset.sum_apply] at this
    have e : ∀ c : Fin m, (μ c • gf2Mat m m C c) ⟨k, hkm⟩ = μ c * (gf2Entry F k (s.piv c).1 * gf2Entry G k (s.piv c).2) := by
      intro c; rw [hCM c]; rfl
    rw [Finset.sum_congr rfl fun c _ => e c] at this
    rw [this]
    exact CharTwo.add_self_eq_zero _
  have hpoly := congrArg (fun p => p.coeff i) (hk lam hkill)
  simp only [coeff_zero] at hpoly
  rw [prodPoly_coeff, hsum fun a b => if a + b = i then 1 else 0] at hpoly
  -- evaluate H on the combination
  have hH : ∀ c : Fin m, ∑ k ∈ range m, gf2Entry (finH m (fn + gn - 1) s.piv (mzdTranspose m m D)) i k * gf2Entry C c k =
      if (s.piv c).1 + (s.piv c).2 = i then 1 else 0 := by
    intro c
    have e1 : ∀ k ∈ range m, gf2Entry (finH m (fn + gn - 1) s.piv (mzdTranspose m m D)) i k * gf2Entry C c k =
        ∑ l ∈ range m, (if (s.piv l).1 + (s.piv l).2 = i then 1 else 0) * (gf2Entry C c k * gf2Entry D k l) := by
      intro k hk
      rw [mem_range] at hk
      rw [finH_entry _ _ _ _ hk, if_pos hi, sum_mul]
      refine Finset.sum_congr rfl fun l _ => ?_
      ring
    rw [Finset.sum_congr rfl e1, sum_comm]
    simp only [← mul_sum]
    have e2 : ∀ l, l < m → ∑ k ∈ range m, gf2Entry C c k * gf2Entry D k l = if l = c then 1 else 0 := by
      intro l hl
      have := congrFun (congrFun hinv c) ⟨l, hl⟩
      rw [Matrix.mul_apply, Matrix.one_apply] at this
      rw [← Fin.sum_univ_eq_sum_range (fun k => gf2Entry C c k * gf2Entry D k l) m]
      refine this.trans ?_
      refine if_congr ?_ rfl rfl
      rw [Fin.ext_iff]; exact eq_comm
    rw [Finset.sum_congr rfl fun l hl => by rw [e2 l (mem_range.1 hl)], sum_eq_single (c : Nat)]
    · rw [if_pos rfl, mul_one]
    · intro l _ hl; rw [if_neg hl, mul_zero]
    · intro hh; exact absurd (mem_range.2 c.2) hh
  have hfin : ∑ k ∈ range m, gf2Entry (finH m (fn + gn - 1) s.piv (mzdTranspose m m D)) i k * (gf2Entry F k v * gf2Entry G k w) =
      ∑ c : Fin m, μ c * if (s.piv c).1 + (s.piv c).2 = i then 1 else 0 := by
    have e1 : ∀ k ∈ range m, gf2Entry (finH m (fn + gn - 1) s.piv (mzdTranspose m m D)) i k * (gf2Entry F k v * gf2Entry G k w) =
        ∑ c : Fin m, μ c * (gf2Entry (finH m (fn + gn - 1) s.piv (mzdTranspose m m D)) i k * gf2Entry C c k) := by
      intro k hkm
      rw [mem_range] at hkm
      have := congrFun hμ ⟨k, hkm⟩
      rw [Finset.sum_apply] at this
      rw [show gf2Entry F k v * gf2Entry G k w = pairVec m F G v w ⟨k, hkm⟩ from rfl, ← this, mul_sum]
      refine Finset.sum_congr rfl fun c _ => ?_
      show _ * (μ c * gf2Entry C c k) = _
      ring
    rw [Finset.sum_congr rfl e1, sum_comm]
    refine Finset.sum_congr rfl fun c _ => ?_
    rw [← mul_sum, hH c]
  rw [hfin]
  exact (CharTwo.add_eq_zero.1 hpoly).symm

end M4rie
