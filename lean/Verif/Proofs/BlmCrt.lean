import Verif.Proofs.BlmInit

/-! `crt_init`: the schemes. -/

namespace M4rie
open Polynomial Spec Finset

/-- the number of coefficients determined by the finite moduli -/
def finDegree (p : Nat → Nat) : Nat := ∑ e ∈ range 16, (e + 1) * p (e + 1)

theorem finDegree_setP {p : Nat → Nat} {k : Nat} (h1 : 1 ≤ k) (h2 : k ≤ 16) (n : Nat) :
    finDegree (setP p k n) + k * p k = finDegree p + k * n := by
  unfold finDegree
  have hk : k - 1 ∈ range 16 := mem_range.2 (by omega)
  rw [← Finset.add_sum_erase _ _ hk, ← Finset.add_sum_erase (range 16) (fun e => (e + 1) * p (e + 1)) hk]
  have : ∑ e ∈ (range 16).erase (k - 1), (e + 1) * setP p k n (e + 1) = ∑ e ∈ (range 16).erase (k - 1), (e + 1) * p (e + 1) := by
    refine Finset.sum_congr rfl fun e he => ?_
    have := (Finset.mem_erase.1 he).1
    congr 1
    exact if_neg (by omega)
  rw [this, show k - 1 + 1 = k by omega]
  have : setP p k n k = n := if_pos rfl
  rw [this]
  omega

/-- the state of the loop of `crt_init` -/
structure CrtInv (need : Int) (omega k have_ : Nat) (p : Nat → Nat) : Prop where
  k1 : 1 ≤ k
  k17 : k ≤ 17
  p0 : p 0 = omega
  bound : ∀ e, 1 ≤ e → e < k → p e ≤ irredCount e
  zero : ∀ e, k ≤ e → p e = 0
  sum : have_ = finDegree p
  full : (have_ : Int) < need → ∀ e, 1 ≤ e → e < k → p e = irredCount e

theorem ceil_bounds {diff d n : Nat} (hd : 1 ≤ d) (hn : n = (diff + d - 1) / d) : diff ≤ d * n ∧ ∀ c, diff ≤ d * c → n ≤ c := by
  subst hn
  constructor
  · have := Nat.lt_div_mul_add (a := diff + d - 1) (b := d) (by omega)
    rw [mul_comm]; omega
  · intro c hc
    rw [Nat.div_le_iff_le_mul_add_pred (by omega)]
    rw [mul_comm] at hc
    rw [mul_comm]
    omega

theorem crtInv_step {need : Int} {omega k have_ : Nat} {p : Nat → Nat} (h : CrtInv need omega k have_ p) (hlt : (have_ : Int) < need) (hk : ¬ 16 < k) :
    ∃ n, CrtInv need omega (k + 1) (have_ + k * n) (setP p k n) ∧
      (if (have_ : Int) + k * irredCount k < need then n = irredCount k else n = ((need - have_).toNat + k - 1) / k) := by
  have hk1 := h.k1
  have hs : ∀ n, finDegree (setP p k n) = have_ + k * n := by
    intro n
    have := finDegree_setP (p := p) hk1 (by omega) n
    rw [h.zero k le_rfl, mul_zero, ← h.sum] at this
    omega
  have hne : ∀ n e, e ≠ k → setP p k n e = p e := fun n e he => if_neg he
  have heq : ∀ n, setP p k n k = n := fun n => if_pos rfl
  have build : ∀ n, n ≤ irredCount k → (((have_ + k * n : Nat) : Int) < need → n = irredCount k) → CrtInv need omega (k + 1) (have_ + k * n) (setP p k n) := by
    intro n hn hfull
    refine ⟨by omega, by omega, by rw [hne n 0 (by omega)]; exact h.p0, ?_, ?_, (hs n).symm, ?_⟩
    · intro e he1 he2
      by_cases he : e = k
      · rw [he, heq]; exact hn
      · rw [hne n e he]; exact h.bound e he1 (by omega)
    · intro e he
      rw [hne n e (by omega)]; exact h.zero e (by omega)
    · intro hh e he1 he2
      by_cases he : e = k
      · rw [he, heq]; exact hfull hh
      · rw [hne n e he]; exact h.full hlt e he1 (by omega)
  by_cases hc : (have_ : Int) + k * irredCount k < need
  · refine ⟨irredCount k, build _ le_rfl fun _ => rfl, ?_⟩
    rw [if_pos hc]
  · refine ⟨((need - have_).toNat + k - 1) / k, build _ ?_ ?_, ?_⟩
    · refine (ceil_bounds hk1 rfl).2 _ ?_
      push Not at hc
      have : ((k * irredCount k : Nat) : Int) = (k : Int) * irredCount k := by push_cast; rfl
      omega
    · intro hh
      exfalso
      have := (ceil_bounds (diff := (need - have_).toNat) hk1 rfl).1
      set n := ((need - have_).toNat + k - 1) / k
      push_cast at hh
      have e2 : ((k * n : Nat) : Int) = (k : Int) * n := by push_cast; rfl
      omega
    · rw [if_neg hc]

theorem crtLoop_step {need : Int} {fuel have_ k : Nat} {p : Nat → Nat} (hlt : (have_ : Int) < need) (hk : ¬ 16 < k) {n : Nat}
    (hn : if (have_ : Int) + k * irredCount k < need then n = irredCount k else n = ((need - have_).toNat + k - 1) / k) :
    crtLoop need (fuel + 1) have_ k p = crtLoop need fuel (have_ + k * n) (k + 1) (setP p k n) := by
  rw [crtLoop.eq_def]
  refine (if_neg (not_not.2 hlt)).trans ((if_neg hk).trans ?_)
  by_cases hc : (have_ : Int) + k * irredCount k < need
  · rw [if_pos hc] at hn
    subst hn
    exact if_pos hc
  · rw [if_neg hc] at hn
    subst hn
    exact if_neg hc

theorem crtLoop_done {need : Int} {fuel have_ k : Nat} {p : Nat → Nat} (h : ¬ (have_ : Int) < need) : crtLoop need fuel have_ k p = some (p, have_) := by
  rw [crtLoop.eq_def]; exact if_pos h

theorem finDegree_all : ∑ e ∈ range 16, (e + 1) * irredCount (e + 1) = 130486 := by decide +kernel

/-- partial correctness and termination -/
theorem crtLoop_spec {need : Int} {omega : Nat} : ∀ (fuel have_ k : Nat) (p : Nat → Nat), CrtInv need omega k have_ p → 17 ≤ fuel + k →
    (∀ p' h', crtLoop need fuel have_ k p = some (p', h') → ¬ (h' : Int) < need ∧ ∃ k', CrtInv need omega k' h' p') ∧
    (need ≤ 130486 → ∃ r, crtLoop need fuel have_ k p = some r) := by
  intro fuel
  induction fuel with
  | zero =>
    intro have_ k p h hf
    by_cases hlt : (have_ : Int) < need
    · have hk : k = 17 := by have := h.k17; omega
      have hn : crtLoop need 0 have_ k p = none := by
        rw [crtLoop.eq_def]; exact (if_neg (not_not.2 hlt)).trans (if_pos (by omega))
      refine ⟨fun p' h' e => (by rw [hn] at e; cases e), fun hneed => ?_⟩
      exfalso
      have e1 : finDegree p = 130486 := by
        rw [← finDegree_all]
        refine Finset.sum_congr rfl fun e he => ?_
        rw [mem_range] at he
        rw [h.full hlt (e + 1) (by omega) (by omega)]
      rw [h.sum, e1] at hlt
      omega
    · rw [crtLoop_done hlt]
      exact ⟨fun p' h' e => (by cases e; exact ⟨hlt, k, h⟩), fun _ => ⟨_, rfl⟩⟩
  | succ fuel ih =>
    intro have_ k p h hf
    by_cases hlt : (have_ : Int) < need
    · by_cases hk : 16 < k
      · have hk : k = 17 := by have := h.k17; omega
        have hn : crtLoop need (fuel + 1) have_ k p = none := by
          rw [crtLoop.eq_def]; exact (if_neg (not_not.2 hlt)).trans (if_pos (by omega))
        refine ⟨fun p' h' e => (by rw [hn] at e; cases e), fun hneed => ?_⟩
        exfalso
        have e1 : finDegree p = 130486 := by
          rw [← finDegree_all]
          refine Finset.sum_congr rfl fun e he => ?_
          rw [mem_range] at he
          rw [h.full hlt (e + 1) (by omega) (by omega)]
        rw [h.sum, e1] at hlt
        omega
      · obtain ⟨n, h1, h2⟩ := crtInv_step h hlt hk
        rw [crtLoop_step hlt hk h2]
        exact ih _ _ _ h1 (by omega)
    · rw [crtLoop_done hlt]
      exact ⟨fun p' h' e => (by cases e; exact ⟨hlt, k, h⟩), fun _ => ⟨_, rfl⟩⟩

theorem crtInv_init (need : Int) (omega : Nat) : CrtInv need omega 1 0 (fun d => if d = 0 then omega else 0) := by
  refine ⟨le_rfl, by omega, rfl, fun e h1 h2 => by omega, fun e he => if_neg (by omega), ?_, fun _ e h1 h2 => by omega⟩
  symm
  exact Finset.sum_eq_zero fun e _ => by
    show (e + 1) * (if e + 1 = 0 then omega else 0) = 0
    rw [if_neg (by omega), mul_zero]

/-- a scheme covering `f_len+g_len-1` coefficients with distinct moduli -/
structure GoodScheme (fLen gLen : Nat) (p : Nat → Nat) : Prop where
  inf : p 0 ≤ 7
  tab : TabOk p
  deg : fLen + gLen ≤ schemeDegree p + 1
  cost : blmCostCrt p < fLen * gLen

theorem crtCandidate_eq (fLen gLen omega : Nat) : crtCandidate fLen gLen omega =
    (crtLoop ((fLen : Int) + gLen - 1 - omega) 17 0 1 (fun d => if d = 0 then omega else 0)).bind fun r =>
      some ((if ((r.2 : Int) - ((fLen : Int) + gLen - 1 - omega)).toNat ≠ 0 ∧ 0 < r.1 ((r.2 : Int) - ((fLen : Int) + gLen - 1 - omega)).toNat then
          setP r.1 ((r.2 : Int) - ((fLen : Int) + gLen - 1 - omega)).toNat (r.1 ((r.2 : Int) - ((fLen : Int) + gLen - 1 - omega)).toNat - 1) else r.1),
        blmCostCrt (if ((r.2 : Int) - ((fLen : Int) + gLen - 1 - omega)).toNat ≠ 0 ∧ 0 < r.1 ((r.2 : Int) - ((fLen : Int) + gLen - 1 - omega)).toNat then
          setP r.1 ((r.2 : Int) - ((fLen : Int) + gLen - 1 - omega)).toNat (r.1 ((r.2 : Int) - ((fLen : Int) + gLen - 1 - omega)).toNat - 1) else r.1)) := rfl

theorem crtCandidate_spec {fLen gLen omega : Nat} {p : Nat → Nat} {c : Nat} (h : crtCandidate fLen gLen omega = some (p, c)) :
    p 0 = omega ∧ TabOk p ∧ fLen + gLen ≤ schemeDegree p + 1 ∧ c = blmCostCrt p := by
  rw [crtCandidate_eq] at h
  cases hl : crtLoop ((fLen : Int) + gLen - 1 - omega) 17 0 1 (fun d => if d = 0 then omega else 0) with
  | none => rw [hl] at h; cases h
  | some r =>
    obtain ⟨q, hv⟩ := r
    rw [hl, Option.bind_some] at h
    obtain ⟨h1, k, hi⟩ := (crtLoop_spec 17 0 1 _ (crtInv_init _ omega) (by omega)).1 q hv hl
    have htab : TabOk q := fun d hd1 hd2 => by
      by_cases hdk : d < k
      · exact hi.bound d hd1 hdk
      · rw [hi.zero d (by omega)]; omega
    have hs := hi.sum
    simp only [Option.some.injEq, Prod.mk.injEq] at h
    obtain ⟨e1, e2⟩ := h
    set diff := ((hv : Int) - ((fLen : Int) + gLen - 1 - omega)).toNat with hdiff
    have hsd : ∀ p, schemeDegree p = p 0 + finDegree p := fun _ => rfl
    by_cases hd : diff ≠ 0 ∧ 0 < q diff
    · rw [if_pos hd] at e1 e2
      have hle : diff ≤ 16 := by
        by_contra hc
        have := hi.zero diff (by have := hi.k17; omega)
        omega
      have hsum := finDegree_setP (p := q) (k := diff) (by omega) hle (q diff - 1)
      have hmul : diff * q diff = diff * (q diff - 1) + diff := by
        obtain ⟨x, hx⟩ : ∃ x, q diff = x + 1 := ⟨q diff - 1, by omega⟩
        rw [hx, Nat.add_sub_cancel, mul_add, mul_one]
      have h0 : setP q diff (q diff - 1) 0 = q 0 := if_neg (by omega)
      subst e1
      refine ⟨by rw [h0]; exact hi.p0, ?_, ?_, e2.symm⟩
      · intro d hd1 hd2
        by_cases hdd : d = diff
        · have : setP q diff (q diff - 1) d = q diff - 1 := if_pos hdd
          rw [this, hdd]
          have := htab diff (by omega) hle
          omega
        · have : setP q diff (q diff - 1) d = q d := if_neg hdd
          rw [this]; exact htab d hd1 hd2
      · rw [hsd, h0, hi.p0]
        omega
    · rw [if_neg hd] at e1 e2
      subst e1
      refine ⟨hi.p0, htab, ?_, e2.symm⟩
      rw [hsd, hi.p0]
      omega

theorem crtCandidate_some {fLen gLen omega : Nat} (h : fLen + gLen ≤ 130487) : ∃ r, crtCandidate fLen gLen omega = some r := by
  obtain ⟨r, e⟩ := (crtLoop_spec (need := (fLen : Int) + gLen - 1 - omega) (omega := omega) 17 0 1 _ (crtInv_init _ omega) (by omega)).2 (by omega)
  rw [crtCandidate_eq, e]
  exact ⟨_, rfl⟩

/-- the best scheme so far -/
structure CrtBest (fLen gLen n : Nat) (s : (Nat → Nat) × Nat) : Prop where
  good : (s.1 = (fun _ => 0) ∧ s.2 = fLen * gLen) ∨ (GoodScheme fLen gLen s.1 ∧ s.2 = blmCostCrt s.1)
  best : ∀ omega, omega < n → ∀ p c, crtCandidate fLen gLen omega = some (p, c) → s.2 ≤ c

theorem crtInit_best {fLen gLen : Nat} : ∀ (n : Nat) (s : (Nat → Nat) × Nat), n ≤ 8 →
    forNM (fun omega (s : (Nat → Nat) × Nat) => (crtCandidate fLen gLen omega).bind fun (p, c) =>
      some (if c < s.2 then (p, c) else s)) n (fun _ => 0, fLen * gLen) = some s → CrtBest fLen gLen n s := by
  intro n
  induction n with
  | zero => intro s _ h; cases h; exact ⟨Or.inl ⟨rfl, rfl⟩, fun omega h => absurd h (Nat.not_lt_zero _)⟩
  | succ n ih =>
    intro s hn h
    rw [forNM] at h
    cases h1 : forNM (fun omega (s : (Nat → Nat) × Nat) => (crtCandidate fLen gLen omega).bind fun (p, c) =>
      some (if c < s.2 then (p, c) else s)) n (fun _ => 0, fLen * gLen) with
    | none => rw [h1] at h; cases h
    | some s1 =>
      rw [h1, Option.bind_some] at h
      have b := ih s1 (by omega) h1
      cases h2 : crtCandidate fLen gLen n with
      | none => rw [h2] at h; cases h
      | some r =>
        obtain ⟨p, c⟩ := r
        obtain ⟨q1, q2, q3, q4⟩ := crtCandidate_spec h2
        rw [h2, Option.bind_some] at h
        have h : (if c < s1.2 then (p, c) else s1) = s := Option.some.inj h
        have hle : s1.2 ≤ fLen * gLen := by
          rcases b.good with h | h
          · exact h.2.le
          · rw [h.2]; exact h.1.cost.le
        by_cases hc : c < s1.2
        · rw [if_pos hc] at h
          subst h
          refine ⟨Or.inr ⟨⟨by show p 0 ≤ 7; rw [q1]; omega, q2, q3, by show blmCostCrt p < _; rw [← q4]; omega⟩, q4⟩, fun omega ho p' c' e => ?_⟩
          by_cases hon : omega = n
          · subst hon; rw [h2] at e; cases e; exact le_rfl
          · exact le_of_lt (lt_of_lt_of_le hc (b.best omega (by omega) p' c' e))
        · rw [if_neg hc] at h
          subst h
          refine ⟨b.good, fun omega ho p' c' e => ?_⟩
          by_cases hon : omega = n
          · subst hon; rw [h2] at e; cases e; omega
          · exact b.best omega (by omega) p' c' e

theorem crtInit_spec {fLen gLen : Nat} {p : Nat → Nat} (h : crtInit? fLen gLen = some p) : p = (fun _ => 0) ∨ GoodScheme fLen gLen p := by
  unfold crtInit? at h
  rw [Option.map_eq_some_iff] at h
  obtain ⟨s, h, rfl⟩ := h
  rcases (crtInit_best 8 s le_rfl h).good with h | h
  · exact Or.inl h.1
  · exact Or.inr h.1

theorem crtInit_some {fLen gLen : Nat} (h : fLen + gLen ≤ 130487) : ∃ p, crtInit? fLen gLen = some p := by
  have key : ∀ n s, ∃ r, forNM (fun omega (s : (Nat → Nat) × Nat) => (crtCandidate fLen gLen omega).bind fun (p, c) =>
      some (if c < s.2 then (p, c) else s)) n s = some r := by
    intro n s
    induction n with
    | zero => exact ⟨s, rfl⟩
    | succ n ih =>
      obtain ⟨r, e⟩ := ih
      obtain ⟨r', e'⟩ := crtCandidate_some (omega := n) h
      exact ⟨_, by rw [forNM, e, Option.bind_some, e', Option.bind_some]⟩
  obtain ⟨r, e⟩ := key 8 (fun _ => 0, fLen * gLen)
  exact ⟨r.1, by unfold crtInit?; rw [e]; rfl⟩

/-- a usable scheme: success of `blm_init_crt` implies that the point at infinity fits -/
theorem blmInit_inf {env : BlmEnv} {fuel fn gn : Nat} {ff : Option Gf2e} {p : Nat → Nat} {djb : Bool} {f : Blm}
    (h : blmInitCrt? env fuel ff fn gn p djb = some f) : p 0 ≤ 16 ∧ p 0 ≤ fn ∧ p 0 ≤ gn := by
  unfold blmInitCrt? at h
  cases hm : blmMaps? fn gn p with
  | none => rw [hm] at h; cases h
  | some r =>
    unfold blmMaps? at hm
    by_cases h16 : 16 < p 0
    · rw [if_pos h16] at hm; cases hm
    · rw [if_neg h16] at hm
      refine ⟨by omega, ?_⟩
      by_cases h0 : p 0 = 0
      · omega
      · unfold crtInfinity? at hm
        rw [if_pos h0] at hm
        by_cases hf : p 0 ≤ fn
        · refine ⟨hf, ?_⟩
          by_contra hg
          have e2 : crtModredMat? gn 0#64 (p 0) = none := by
            unfold crtModredMat?; rw [if_pos rfl, if_neg hg]
          have : ∀ N s, crtAddBlock? fn gn N 0#64 (p 0) s = none := by
            intro N s
            unfold crtAddBlock?
            rw [e2]
            cases crtModredMat? fn 0#64 (p 0) <;> rfl
          simp only [this] at hm
          cases hN : smallMapMzd? (p 0) <;> rw [hN] at hm <;> simp at hm
        · exfalso
          have e2 : crtModredMat? fn 0#64 (p 0) = none := by
            unfold crtModredMat?; rw [if_pos rfl, if_neg hf]
          have : ∀ N s, crtAddBlock? fn gn N 0#64 (p 0) s = none := by
            intro N s
            unfold crtAddBlock?
            rw [e2]; rfl
          simp only [this] at hm
          cases hN : smallMapMzd? (p 0) <;> rw [hN] at hm <;> simp at hm

end M4rie

namespace M4rie
open Polynomial Spec Finset

/-! ### lower bound on the cost; schemes with the minimal number of products -/

theorem crtCost_ge : ∀ d, d ≤ 16 → d ≤ crtCost d := by decide

theorem schemeDegree_le_cost {p : Nat → Nat} (h : p 0 ≤ 16) : schemeDegree p ≤ blmCostCrt p := by
  rw [blmCostCrt_eq]
  unfold schemeDegree
  refine Nat.add_le_add (crtCost_ge _ h) (Finset.sum_le_sum fun e he => ?_)
  rw [mem_range] at he
  exact Nat.mul_le_mul_right _ (crtCost_ge _ (by omega))

theorem crtInit_one {fLen gLen : Nat} (h1 : fLen = 1 ∨ gLen = 1) {p : Nat → Nat} (h : crtInit? fLen gLen = some p) :
    p = fun _ => 0 := by
  rcases crtInit_spec h with h | h
  · exact h
  · exfalso
    have a := schemeDegree_le_cost (p := p) (by have := h.inf; omega)
    have b := h.deg
    have c := h.cost
    rcases h1 with h1 | h1
    · subst h1; omega
    · subst h1; omega

/-- the pair `v ≤ w` with `v + w = t` -/
def monoPair (gn t : Nat) : Nat × Nat := if t < gn then (0, t) else (t - gn + 1, gn - 1)

theorem monoPair_spec {fn gn t : Nat} (h1 : 1 ≤ fn) (h2 : fn ≤ gn) (ht : t < fn + gn - 1) :
    (monoPair gn t).1 ≤ (monoPair gn t).2 ∧ (monoPair gn t).1 < fn ∧ (monoPair gn t).2 < gn ∧ (monoPair gn t).1 + (monoPair gn t).2 = t := by
  unfold monoPair
  split <;> simp only <;> omega

theorem pairsSpan_minimal {fn gn : Nat} {F G : Nat → Nat → Word} (h1 : 1 ≤ fn) (h2 : fn ≤ gn)
    (hk : ∀ l, Kills (fn + gn - 1) fn gn F G l → prodPoly fn gn l = 0) : PairsSpan (fn + gn - 1) fn gn F G := by
  set m := fn + gn - 1 with hm
  have hind : LinearIndependent (ZMod 2) fun t : Fin m => pairVec m F G (monoPair gn t).1 (monoPair gn t).2 := by
    rw [Fintype.linearIndependent_iff]
    intro μ hμ
    set lam : Nat → Nat → ZMod 2 := fun a b => ∑ t : Fin m, μ t * if a = (monoPair gn t).1 ∧ b = (monoPair gn t).2 then 1 else 0 with hlam
    have hsum : ∀ f : Nat → Nat → ZMod 2, ∑ a ∈ range fn, ∑ b ∈ range gn, lam a b * f a b =
        ∑ t : Fin m, μ t * f (monoPair gn t).1 (monoPair gn t).2 := by
      intro f
      have single : ∀ v w, v < fn → w < gn → ∑ a ∈ range fn, ∑ b ∈ range gn, (if a = v ∧ b = w then 1 else 0) * f a b = f v w := by
        intro v w hv hw
        rw [sum_eq_single v, sum_eq_single w]
        · rw [if_pos ⟨rfl, rfl⟩, one_mul]
        · intro b _ hb; rw [if_neg (by tauto), zero_mul]
        · intro hh; exact absurd (mem_range.2 hw) hh
        · intro a _ ha
          refine Finset.sum_eq_zero fun b _ => ?_
          rw [if_neg (by tauto), zero_mul]
        · intro hh; exact absurd (mem_range.2 hv) hh
      have e1 : ∀ a b, lam a b * f a b = ∑ t : Fin m, μ t * ((if a = (monoPair gn t).1 ∧ b = (monoPair gn t).2 then 1 else 0) * f a b) := by
        intro a b
        rw [hlam]
        simp only
        rw [sum_mul]
        refine Finset.sum_congr rfl fun k _ => ?_
        ring
      simp only [e1]
      rw [Finset.sum_congr rfl fun a _ => sum_comm, sum_comm]
      refine Finset.sum_congr rfl fun k _ => ?_
      simp only [← mul_sum]
      obtain ⟨_, q2, q3, _⟩ := monoPair_spec (t := k) h1 h2 (by have := k.2; omega)
      rw [single _ _ q2 q3]
    have hkill : Kills m fn gn F G lam := by
      intro k hkm
      rw [hsum fun a b => gf2Entry F k a * gf2Entry G k b]
      have := congrFun hμ ⟨k, hkm⟩
      rw [Finset.sum_apply] at this
      exact this
    intro t0
    have hpoly := congrArg (fun p => p.coeff (t0 : Nat)) (hk lam hkill)
    simp only [coeff_zero] at hpoly
    rw [prodPoly_coeff, hsum fun a b => if a + b = t0 then 1 else 0] at hpoly
    rw [Finset.sum_eq_single t0] at hpoly
    · obtain ⟨_, _, _, q4⟩ := monoPair_spec (t := t0) h1 h2 (by have := t0.2; omega)
      rw [if_pos q4, mul_one] at hpoly
      exact hpoly
    · intro b _ hb
      obtain ⟨_, _, _, q4⟩ := monoPair_spec (t := b) h1 h2 (by have := b.2; omega)
      rw [q4, if_neg (fun h => hb (Fin.ext h)), mul_zero]
    · intro hh; exact absurd (Finset.mem_univ _) hh
  have htop := hind.span_eq_top_of_card_eq_finrank' (by rw [Fintype.card_fin, Module.finrank_fin_fun])
  unfold PairsSpan
  rw [eq_top_iff, ← htop, Submodule.span_le]
  rintro x ⟨t, rfl⟩
  obtain ⟨q1, q2, q3, _⟩ := monoPair_spec (t := t) h1 h2 (by have := t.2; omega)
  exact Submodule.subset_span ⟨_, _, q1, q2, q3, rfl⟩

/-- the number of pairs bounds the number of products -/
theorem pairsSpan_card {m fn gn : Nat} {F G : Nat → Nat → Word} (h : PairsSpan m fn gn F G) :
    m ≤ ((range fn ×ˢ range gn).filter fun p => p.1 ≤ p.2).card := by
  classical
  have e : {x | ∃ v w, v ≤ w ∧ v < fn ∧ w < gn ∧ x = pairVec m F G v w} =
      ((((range fn ×ˢ range gn).filter fun p => p.1 ≤ p.2).image fun p => pairVec m F G p.1 p.2 : Finset (Fin m → ZMod 2)) : Set (Fin m → ZMod 2)) := by
    ext x
    simp only [Set.mem_setOf_eq, Finset.coe_image, Set.mem_image, Finset.mem_coe, Finset.mem_filter, Finset.mem_product, mem_range, Prod.exists]
    constructor
    · rintro ⟨v, w, a, b, c, rfl⟩; exact ⟨v, w, ⟨⟨b, c⟩, a⟩, rfl⟩
    · rintro ⟨v, w, ⟨⟨b, c⟩, a⟩, rfl⟩; exact ⟨v, w, a, b, c, rfl⟩
  unfold PairsSpan at h
  rw [e] at h
  have hf := finrank_span_finset_le_card (R := ZMod 2) (((range fn ×ˢ range gn).filter fun p => p.1 ≤ p.2).image fun p => pairVec m F G p.1 p.2)
  rw [Set.finrank, h, finrank_top, Module.finrank_fin_fun] at hf
  exact hf.trans Finset.card_image_le

end M4rie

namespace M4rie
open Polynomial Spec Finset

/-! ### upper bound on the cost: `crt_init` finds something -/

theorem crtLoop_upper {need : Int} : ∀ (fuel have_ k : Nat) (p p' : Nat → Nat) (h' : Nat), 1 ≤ k → crtLoop need fuel have_ k p = some (p', h') →
    (have_ : Int) ≤ need + 15 → (h' : Int) ≤ need + 15 := by
  intro fuel
  induction fuel with
  | zero =>
    intro have_ k p p' h' _ e hle
    rw [crtLoop.eq_def] at e
    by_cases hlt : (have_ : Int) < need
    · have e : (if 16 < k then none else none) = some (p', h') := (if_neg (not_not.2 hlt)).symm.trans e
      rw [ite_self] at e; cases e
    · have e : some (p, have_) = some (p', h') := (if_pos hlt).symm.trans e
      cases e; exact hle
  | succ fuel ih =>
    intro have_ k p p' h' hk1 e hle
    by_cases hlt : (have_ : Int) < need
    · by_cases hk : 16 < k
      · rw [crtLoop.eq_def] at e
        have e : none = some (p', h') := ((if_neg (not_not.2 hlt)).trans (if_pos hk)).symm.trans e
        cases e
      · by_cases hc : (have_ : Int) + k * irredCount k < need
        · rw [crtLoop_step (n := irredCount k) hlt hk (by rw [if_pos hc])] at e
          refine ih _ _ _ _ _ (by omega) e ?_
          have : ((k * irredCount k : Nat) : Int) = (k : Int) * irredCount k := by push_cast; rfl
          omega
        · rw [crtLoop_step (n := ((need - have_).toNat + k - 1) / k) hlt hk (by rw [if_neg hc])] at e
          refine ih _ _ _ _ _ (by omega) e ?_
          have := Nat.div_mul_le_self ((need - have_).toNat + k - 1) k
          rw [mul_comm] at this
          set n := ((need - have_).toNat + k - 1) / k
          omega
    · rw [crtLoop_done hlt] at e
      cases e; exact hle

theorem crtCost_le : ∀ d, d ≤ 16 → crtCost d ≤ 4 * d := by decide

theorem cost_le_degree {p : Nat → Nat} (h : p 0 ≤ 16) : blmCostCrt p ≤ 4 * (p 0 + finDegree p) := by
  rw [blmCostCrt_eq, mul_add]
  unfold finDegree
  refine Nat.add_le_add (crtCost_le _ h) ?_
  rw [Finset.mul_sum]
  refine Finset.sum_le_sum fun e he => ?_
  rw [mem_range] at he
  rw [← mul_assoc]
  exact Nat.mul_le_mul_right _ (crtCost_le _ (by omega))

theorem crtCandidate_cost {fLen gLen : Nat} {p : Nat → Nat} {c : Nat} (hf : 1 ≤ fLen) (h : crtCandidate fLen gLen 0 = some (p, c)) :
    c ≤ 4 * (fLen + gLen + 14) := by
  obtain ⟨q0, _, _, qc⟩ := crtCandidate_spec h
  rw [qc]
  refine (cost_le_degree (by omega)).trans ?_
  rw [q0]
  rw [crtCandidate_eq] at h
  cases hl : crtLoop ((fLen : Int) + gLen - 1 - (0 : Nat)) 17 0 1 (fun d => if d = 0 then 0 else 0) with
  | none => rw [hl] at h; cases h
  | some r =>
    obtain ⟨q, hv⟩ := r
    rw [hl, Option.bind_some] at h
    have hup := crtLoop_upper 17 0 1 _ q hv le_rfl hl (by omega)
    obtain ⟨h1, k, hi⟩ := (crtLoop_spec 17 0 1 _ (crtInv_init _ 0) (by omega)).1 q hv hl
    have hs := hi.sum
    simp only [Option.some.injEq, Prod.mk.injEq] at h
    obtain ⟨e1, _⟩ := h
    set diff := ((hv : Int) - ((fLen : Int) + gLen - 1 - (0 : Nat))).toNat with hdiff
    by_cases hd : diff ≠ 0 ∧ 0 < q diff
    · rw [if_pos hd] at e1
      have hle : diff ≤ 16 := by
        by_contra hc
        have := hi.zero diff (by have := hi.k17; omega)
        omega
      have hsum := finDegree_setP (p := q) (k := diff) (by omega) hle (q diff - 1)
      have hm : diff * (q diff - 1) ≤ diff * q diff := Nat.mul_le_mul_left _ (by omega)
      rw [e1] at hsum
      omega
    · rw [if_neg hd] at e1
      subst e1
      omega

/-- if both polynomials are long enough, `crt_init` finds a scheme that is better than the trivial one -/
theorem crtInit_useful {fLen gLen : Nat} (hf : 1 ≤ fLen) (h : 4 * (fLen + gLen + 14) < fLen * gLen) {p : Nat → Nat} (e : crtInit? fLen gLen = some p) :
    GoodScheme fLen gLen p := by
  unfold crtInit? at e
  rw [Option.map_eq_some_iff] at e
  obtain ⟨s, e, rfl⟩ := e
  have b := crtInit_best 8 s le_rfl e
  rcases b.good with hz | hz
  · exfalso
    have hc : ∃ r, crtCandidate fLen gLen 0 = some r := by
      cases h1 : crtCandidate fLen gLen 0 with
      | some r => exact ⟨r, rfl⟩
      | none =>
        exfalso
        have : ∀ n, forNM (fun omega (s : (Nat → Nat) × Nat) => (crtCandidate fLen gLen omega).bind fun (p, c) =>
            some (if c < s.2 then (p, c) else s)) (n + 1) (fun _ => 0, fLen * gLen) = none := by
          intro n
          induction n with
          | zero => rw [forNM, forNM, Option.bind_some, h1]; rfl
          | succ n ih => rw [forNM, ih]; rfl
        rw [this 7] at e
        cases e
    obtain ⟨⟨q, c⟩, hc⟩ := hc
    have h1 := b.best 0 (by omega) q c hc
    have h2 := crtCandidate_cost hf hc
    rw [hz.2] at h1
    omega
  · exact hz.1

end M4rie
