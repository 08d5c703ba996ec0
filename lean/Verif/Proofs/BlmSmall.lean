import Verif.Proofs.BlmCrt
import Verif.Proofs.BlmSingle

/-! The matrices of `blm_init_crt` as lists of numbers, so that the kernel can decide for given lengths whether the search of
`_blm_finish_polymult` succeeds. -/

namespace M4rie
open Polynomial Spec Finset

/-! ### bits -/

/-- sum of the `d` low bits -/
def par : Nat → Nat → Bool
  | 0, _ => false
  | d + 1, n => xor (n.testBit 0) (par d (n / 2))

theorem par_sum : ∀ d n, gf2 (par d n) = ∑ a ∈ range d, gf2 (n.testBit a) := by
  intro d
  induction d with
  | zero => intro n; rfl
  | succ d ih =>
    intro n
    have e : ∀ a, (n / 2).testBit a = n.testBit (a + 1) := fun a => (Nat.testBit_succ n a).symm
    rw [Finset.sum_range_succ', par, gf2_xor, ih]
    simp only [e]
    exact add_comm (gf2 (n.testBit 0)) _

/-- the number with the bits `f 0 .. f (n-1)` -/
def mkBits : Nat → (Nat → Bool) → Nat
  | 0, _ => 0
  | n + 1, f => (if f 0 then 1 else 0) + 2 * mkBits n (fun i => f (i + 1))

theorem mkBits_testBit : ∀ n f v, v < n → (mkBits n f).testBit v = f v := by
  intro n
  induction n with
  | zero => intro f v h; omega
  | succ n ih =>
    intro f v h
    cases v with
    | zero =>
      rw [mkBits, Nat.testBit_zero]
      by_cases h : f 0 = true
      · rw [if_pos h, h]; exact decide_eq_true (by omega)
      · rw [if_neg h, Bool.not_eq_true] at *
        rw [h]; exact decide_eq_false (by omega)
    | succ v =>
      rw [mkBits, Nat.testBit_succ, show ((if f 0 then 1 else 0) + 2 * mkBits n (fun i => f (i + 1))) / 2 = mkBits n (fun i => f (i + 1)) by split <;> omega]
      exact ih _ v (by omega)

/-- the residue of `x^v` modulo `poly` of degree `d` -/
def xpowN (poly d : Nat) : Nat → Nat
  | 0 => 1
  | v + 1 => if (2 * xpowN poly d v).testBit d then (2 * xpowN poly d v) ^^^ poly else 2 * xpowN poly d v

theorem natDegree_coeff_top {f : (ZMod 2)[X]} {d : Nat} (h : f.natDegree = d) (h0 : f ≠ 0) : f.coeff d = 1 := by
  have hne : f.leadingCoeff ≠ 0 := leadingCoeff_ne_zero.2 h0
  have key : ∀ c : ZMod 2, c ≠ 0 → c = 1 := by decide
  have := key _ hne
  rw [leadingCoeff, h] at this
  exact this

theorem xpow_coeff {poly d : Nat} (hb : poly < 2 ^ 64) (hm : MinOK (BitVec.ofNat 64 poly) d) :
    ∀ v a, (X ^ v % toPoly (BitVec.ofNat 64 poly) : (ZMod 2)[X]).coeff a = gf2 ((xpowN poly d v).testBit a) := by
  set f := toPoly (BitVec.ofNat 64 poly) with hf
  have hd1 : f.natDegree = d := hm.1
  have hdp : 1 ≤ d := hm.e1
  have h0 : f ≠ 0 := hm.ne0
  have hfd : f.degree = d := by rw [degree_eq_natDegree h0, hd1]
  have hfc : ∀ a, f.coeff a = gf2 (poly.testBit a) := by
    intro a
    rw [hf, toPoly_coeff, BitVec.getLsbD_ofNat]
    show gf2 _ = _
    by_cases h : a < 64
    · rw [decide_eq_true h, Bool.true_and]
    · rw [decide_eq_false h, Bool.false_and, Nat.testBit_lt_two_pow (lt_of_lt_of_le hb (Nat.pow_le_pow_right (by omega) (by omega)))]
  intro v
  induction v with
  | zero =>
    intro a
    have : (X ^ 0 % f : (ZMod 2)[X]) = 1 := by
      refine mod_eq_of ?_ (by rw [pow_zero, sub_self]; exact dvd_zero _)
      rw [degree_one, hfd]; exact_mod_cast hdp
    rw [this, coeff_one]
    show _ = gf2 (Nat.testBit 1 a)
    cases a with
    | zero => rfl
    | succ a => rw [if_neg (by omega), Nat.testBit_succ, show 1 / 2 = 0 from rfl, Nat.zero_testBit]; rfl
  | succ v ih =>
    set r := (X ^ v % f : (ZMod 2)[X]) with hr
    have hrd : r.degree < f.degree := EuclideanDomain.mod_lt _ h0
    have hdvd : f ∣ X ^ (v + 1) - X * r := by
      obtain ⟨q, hq⟩ := modSub_dvd (X ^ v) f
      exact ⟨X * q, by rw [pow_succ]; linear_combination X * hq⟩
    have hX : ∀ a, (X * r).coeff a = gf2 ((2 * xpowN poly d v).testBit a) := by
      intro a
      cases a with
      | zero => rw [coeff_X_mul_zero, Nat.testBit_zero, decide_eq_false (by omega)]; rfl
      | succ a => rw [coeff_X_mul, ih, Nat.testBit_succ, Nat.mul_div_cancel_left _ (by omega)]
    have hXd : (X * r).degree ≤ f.degree := by
      rw [degree_le_iff_coeff_zero]
      intro a ha
      cases a with
      | zero => exact coeff_X_mul_zero r
      | succ a =>
        rw [coeff_X_mul]
        refine coeff_eq_zero_of_degree_lt (lt_of_lt_of_le hrd ?_)
        rw [hfd] at ha ⊢
        have ha : d < a + 1 := by exact_mod_cast ha
        exact_mod_cast Nat.le_of_lt_succ ha
    intro a
    rw [xpowN]
    by_cases hbit : (2 * xpowN poly d v).testBit d = true
    · rw [if_pos hbit]
      have : (X ^ (v + 1) % f : (ZMod 2)[X]) = X * r + f := by
        refine mod_eq_of ?_ ?_
        · rw [hfd, degree_lt_iff_coeff_zero]
          intro b hb
          rw [coeff_add]
          rcases Nat.eq_or_lt_of_le hb with h | h
          · rw [← h, hX, hbit, natDegree_coeff_top hd1 h0]; exact CharTwo.add_self_eq_zero _
          · have e1 : (X * r).coeff b = 0 := coeff_eq_zero_of_degree_lt (lt_of_le_of_lt hXd (by rw [hfd]; exact_mod_cast h))
            have e2 : f.coeff b = 0 := coeff_eq_zero_of_degree_lt (by rw [hfd]; exact_mod_cast h)
            rw [e1, e2, add_zero]
        · obtain ⟨q, hq⟩ := hdvd
          exact ⟨q - 1, by linear_combination hq⟩
      rw [this, coeff_add, hX, hfc, Nat.testBit_xor, gf2_xor]
    · rw [if_neg hbit]
      rw [Bool.not_eq_true] at hbit
      have : (X ^ (v + 1) % f : (ZMod 2)[X]) = X * r := by
        refine mod_eq_of ?_ hdvd
        rw [hfd, degree_lt_iff_coeff_zero]
        intro b hb
        rcases Nat.eq_or_lt_of_le hb with h | h
        · rw [← h, hX, hbit]; rfl
        · exact coeff_eq_zero_of_degree_lt (lt_of_le_of_lt hXd (by rw [hfd]; exact_mod_cast h))
      rw [this, hX]

/-! ### the rows -/

/-- the rows of one block -/
def blockList (len d : Nat) (L : List Nat) (x : Nat → Nat) : List Nat := L.map fun n => mkBits len fun v => par d (n &&& x v)

theorem blockList_bit {len d : Nat} {L : List Nat} {x : Nat → Nat} {k v : Nat} (hk : k < L.length) (hv : v < len) :
    smallBit (blockList len d L x) k v = ∑ a ∈ range d, smallBit L k a * gf2 ((x v).testBit a) := by
  unfold smallBit blockList
  rw [List.getD_eq_getElem _ _ (by rw [List.length_map]; exact hk), List.getElem_map, mkBits_testBit _ _ _ hv, par_sum]
  refine Finset.sum_congr rfl fun a _ => ?_
  rw [Nat.testBit_and, gf2_and, List.getD_eq_getElem _ _ hk]

/-- the matrices `F`, `G` of the state have the rows `Fs`, `Gs` -/
structure RowsAre (fn gn : Nat) (s : CrtState) (Fs Gs : List Nat) : Prop where
  lenF : Fs.length = s.r
  lenG : Gs.length = s.r
  F : ∀ k v, k < s.r → v < fn → gf2Entry s.F k v = smallBit Fs k v
  G : ∀ k v, k < s.r → v < gn → gf2Entry s.G k v = smallBit Gs k v

theorem smallBit_append_left {A B : List Nat} {k : Nat} (h : k < A.length) (v : Nat) : smallBit (A ++ B) k v = smallBit A k v := by
  unfold smallBit; rw [List.getD_append _ _ _ _ h]

theorem smallBit_append_right {A B : List Nat} (k : Nat) (v : Nat) : smallBit (A ++ B) (A.length + k) v = smallBit B k v := by
  unfold smallBit; rw [List.getD_append_right _ _ _ _ (by omega), Nat.add_sub_cancel_left]

theorem addBlock_rows {fn gn d : Nat} {N : Mzd} {L : List Nat} (hL : L.length = crtCost d)
    (hN : ∀ k a, a < d → gf2Entry N.w k a = smallBit L k a) {poly : Word} {MF MG : Nat → Nat → Word}
    (eF : crtModredMat? fn poly d = some MF) (eG : crtModredMat? gn poly d = some MG) {xF xG : Nat → Nat}
    (hF : ∀ a v, a < d → v < fn → gf2Entry MF a v = gf2 ((xF v).testBit a)) (hG : ∀ a v, a < d → v < gn → gf2Entry MG a v = gf2 ((xG v).testBit a))
    {s : CrtState} {Fs Gs : List Nat} (hs : RowsAre fn gn s Fs Gs) :
    ∃ s', crtAddBlock? fn gn N poly d s = some s' ∧ s'.it = s.it ∧
      RowsAre fn gn s' (Fs ++ blockList fn d L xF) (Gs ++ blockList gn d L xG) := by
  refine ⟨{ s with F := mzdMulRows s.F s.r (crtCost d) d fn N.w MF, G := mzdMulRows s.G s.r (crtCost d) d gn N.w MG, r := s.r + crtCost d },
    by unfold crtAddBlock?; rw [eF, Option.bind_some, eG, Option.bind_some], rfl, ?_, ?_, ?_, ?_⟩
  · show _ = s.r + crtCost d
    rw [List.length_append, blockList, List.length_map, hs.lenF, hL]
  · show _ = s.r + crtCost d
    rw [List.length_append, blockList, List.length_map, hs.lenG, hL]
  · intro k v hk hv
    have hk : k < s.r + crtCost d := hk
    show gf2Entry (mzdMulRows _ _ _ _ _ _ _) k v = _
    rw [mulRows_entry]
    by_cases h : s.r ≤ k
    · rw [if_pos ⟨h, hk, hv⟩]
      obtain ⟨j, rfl⟩ : ∃ j, k = s.r + j := ⟨k - s.r, by omega⟩
      rw [← hs.lenF, smallBit_append_right, blockList_bit (by omega) hv, Nat.add_sub_cancel_left]
      refine Finset.sum_congr rfl fun a ha => ?_
      rw [mem_range] at ha
      rw [hN _ _ ha, hF a v ha hv]
    · rw [if_neg (by omega), smallBit_append_left (by rw [hs.lenF]; omega), hs.F k v (by omega) hv]
  · intro k v hk hv
    have hk : k < s.r + crtCost d := hk
    show gf2Entry (mzdMulRows _ _ _ _ _ _ _) k v = _
    rw [mulRows_entry]
    by_cases h : s.r ≤ k
    · rw [if_pos ⟨h, hk, hv⟩]
      obtain ⟨j, rfl⟩ : ∃ j, k = s.r + j := ⟨k - s.r, by omega⟩
      rw [← hs.lenG, smallBit_append_right, blockList_bit (by omega) hv, Nat.add_sub_cancel_left]
      refine Finset.sum_congr rfl fun a ha => ?_
      rw [mem_range] at ha
      rw [hN _ _ ha, hG a v ha hv]
    · rw [if_neg (by omega), smallBit_append_left (by rw [hs.lenG]; omega), hs.G k v (by omega) hv]

/-- the coefficients of `x^v` at infinity -/
def infCol (len d v : Nat) : Nat := if len ≤ v + d then 2 ^ (len - 1 - v) else 0

/-- the map for polynomials of length `d` -/
def mapOf (d : Nat) : List Nat := (smallMap? d).getD []

/-- the rows belonging to the point at infinity -/
def infRows (len ω : Nat) : List Nat := if ω = 0 then [] else blockList len ω (mapOf ω) (infCol len ω)

/-- the rows belonging to the first `n` moduli of degree `d` -/
def degRows (len d n : Nat) : List Nat :=
  (List.range n).flatMap fun j => blockList len d (mapOf d) (xpowN ((irredTable d).getD j 0) d)

/-- all rows, the moduli having degree at most `D` -/
def schemeRows (len : Nat) (p : Nat → Nat) (D : Nat) : List Nat :=
  infRows len (p 0) ++ (List.range D).flatMap fun e => degRows len (e + 1) (p (e + 1))

theorem infinity_rows {fn gn : Nat} {p : Nat → Nat} (h16 : p 0 ≤ 16) (hf : p 0 ≤ fn) (hg : p 0 ≤ gn) :
    ∃ s, crtInfinity? fn gn p ⟨zeroW, zeroW, 0, fun _ => 0⟩ = some s ∧ s.it = (fun _ => 0) ∧ RowsAre fn gn s (infRows fn (p 0)) (infRows gn (p 0)) := by
  unfold crtInfinity? infRows
  by_cases h0 : p 0 = 0
  · rw [if_neg (not_not.2 h0), if_pos h0, if_pos h0]
    exact ⟨_, rfl, rfl, rfl, rfl, fun k v hk => absurd hk (Nat.not_lt_zero _), fun k v hk => absurd hk (Nat.not_lt_zero _)⟩
  · rw [if_pos h0, if_neg h0, if_neg h0]
    obtain ⟨N, L, eN, eL, hL, hN⟩ := smallMapMzd_spec (by omega) h16
    obtain ⟨MF, eF, hF⟩ := crtModredMat_inf hf
    obtain ⟨MG, eG, hG⟩ := crtModredMat_inf hg
    have hcol : ∀ len a v, a < p 0 → v < len → gf2 (decide (a < p 0 ∧ v + a + 1 = len)) = gf2 ((infCol len (p 0) v).testBit a) := by
      intro len a v ha hv
      unfold infCol
      by_cases hc : v + a + 1 = len
      · rw [decide_eq_true ⟨ha, hc⟩, if_pos (by omega), show len - 1 - v = a by omega, Nat.testBit_two_pow_self]
      · rw [decide_eq_false (by tauto)]
        by_cases hl : len ≤ v + p 0
        · rw [if_pos hl, Nat.testBit_two_pow_of_ne (by omega)]
        · rw [if_neg hl, Nat.zero_testBit]
    obtain ⟨s', e, hit, hr⟩ := addBlock_rows hL hN eF eG (xF := infCol fn (p 0)) (xG := infCol gn (p 0))
      (fun a v ha hv => by show gf2 _ = _; rw [hF]; exact hcol fn a v ha hv) (fun a v ha hv => by show gf2 _ = _; rw [hG]; exact hcol gn a v ha hv)
      (s := ⟨zeroW, zeroW, 0, fun _ => 0⟩) (Fs := []) (Gs := [])
      ⟨rfl, rfl, fun k v hk => absurd hk (Nat.not_lt_zero _), fun k v hk => absurd hk (Nat.not_lt_zero _)⟩
    refine ⟨s', by rw [eN]; exact e, hit, ?_⟩
    have : mapOf (p 0) = L := by unfold mapOf; rw [eL]; rfl
    rw [this]
    exact hr

theorem degree_rows {fn gn : Nat} {p : Nat → Nat} (hp : TabOk p) {D : Nat} (hD : D < 16) {s : CrtState} {Fs Gs : List Nat}
    (hit : ∀ e, D < e → s.it e = 0) (hs : RowsAre fn gn s Fs Gs) :
    ∃ s', crtDegree? fn gn p (D + 1) s = some s' ∧ (∀ e, D + 1 < e → s'.it e = 0) ∧
      RowsAre fn gn s' (Fs ++ degRows fn (D + 1) (p (D + 1))) (Gs ++ degRows gn (D + 1) (p (D + 1))) := by
  unfold crtDegree?
  by_cases h0 : p (D + 1) = 0
  · rw [if_pos h0, h0]
    refine ⟨s, rfl, fun e he => hit e (by omega), ?_⟩
    show RowsAre fn gn s (Fs ++ []) (Gs ++ [])
    rw [List.append_nil, List.append_nil]; exact hs
  · rw [if_neg h0]
    obtain ⟨N, L, eN, eL, hL, hN⟩ := smallMapMzd_spec (d := D + 1) (by omega) (by omega)
    have hmap : mapOf (D + 1) = L := by unfold mapOf; rw [eL]; rfl
    rw [eN, Option.bind_some]
    suffices h : ∀ n, n ≤ p (D + 1) → ∃ s', forNM (fun _ s => (crtModulus? s.it (D + 1)).bind fun (q, it) =>
        crtAddBlock? fn gn N q (D + 1) { s with it := it }) n s = some s' ∧ s'.it (D + 1) = n ∧ (∀ e, D + 1 < e → s'.it e = 0) ∧
        RowsAre fn gn s' (Fs ++ degRows fn (D + 1) n) (Gs ++ degRows gn (D + 1) n) by
      obtain ⟨s', e, _, h2, h3⟩ := h _ le_rfl
      exact ⟨s', e, h2, h3⟩
    intro n
    induction n with
    | zero =>
      intro _
      refine ⟨s, rfl, hit _ (by omega), fun e he => hit e (by omega), ?_⟩
      show RowsAre fn gn s (Fs ++ []) (Gs ++ [])
      rw [List.append_nil, List.append_nil]; exact hs
    | succ n ih =>
      intro hn
      obtain ⟨s1, e1, h2, h3, h4⟩ := ih (by omega)
      have hnc : n < irredCount (D + 1) := lt_of_lt_of_le hn (hp _ (by omega) (by omega))
      have hmod := crtModulus_spec (it := s1.it) (d := D + 1) (by omega) (by rw [h2]; exact hnc)
      rw [h2] at hmod
      obtain ⟨hd1, hd2⟩ := tab_irred hnc
      have hm : MinOK (BitVec.ofNat 64 ((irredTable (D + 1)).getD n 0)) (D + 1) := ⟨hd1, by omega, by omega⟩
      obtain ⟨MF, eF, hF⟩ := crtModredMat_spec hm fn
      obtain ⟨MG, eG, hG⟩ := crtModredMat_spec hm gn
      have hx := xpow_coeff (tab_bound (tab_mem hnc)) hm
      have hs1 : RowsAre fn gn { s1 with it := setP s1.it (D + 1) (n + 1) } (Fs ++ degRows fn (D + 1) n) (Gs ++ degRows gn (D + 1) n) :=
        ⟨h4.lenF, h4.lenG, h4.F, h4.G⟩
      obtain ⟨s2, e2, it2, r2⟩ := addBlock_rows hL hN eF eG (fun a v _ hv => by rw [hF, if_pos hv]; exact hx v a)
        (fun a v _ hv => by rw [hG, if_pos hv]; exact hx v a) hs1
      refine ⟨s2, ?_, ?_, ?_, ?_⟩
      · rw [forNM, e1, Option.bind_some, hmod, Option.bind_some]; exact e2
      · rw [it2]; exact if_pos rfl
      · intro e he
        rw [it2]
        show (if e = D + 1 then _ else s1.it e) = 0
        rw [if_neg (by omega), h3 e he]
      · have : ∀ len, degRows len (D + 1) (n + 1) = degRows len (D + 1) n ++ blockList len (D + 1) L (xpowN ((irredTable (D + 1)).getD n 0) (D + 1)) := by
          intro len
          unfold degRows
          rw [List.range_succ, List.flatMap_append, List.flatMap_singleton, hmap]
        rw [this, this, ← List.append_assoc, ← List.append_assoc]
        exact r2

theorem blmMaps_rows {fn gn : Nat} {p : Nat → Nat} (hp : SchemeOk fn gn p) :
    ∃ s, blmMaps? fn gn p = some (blmCostCrt p, s) ∧ s.r = blmCostCrt p ∧ RowsAre fn gn s (schemeRows fn p 16) (schemeRows gn p 16) := by
  obtain ⟨s0, e0, it0, q0⟩ := infinity_rows hp.inf16 hp.infF hp.infG
  have key : ∀ n, n ≤ 16 → ∃ s, forNM (fun d s => crtDegree? fn gn p (d + 1) s) n s0 = some s ∧ (∀ e, n < e → s.it e = 0) ∧
      RowsAre fn gn s (schemeRows fn p n) (schemeRows gn p n) := by
    intro n
    induction n with
    | zero =>
      intro _
      refine ⟨s0, rfl, fun e _ => by rw [it0], ?_⟩
      show RowsAre fn gn s0 (infRows fn (p 0) ++ []) (infRows gn (p 0) ++ [])
      rw [List.append_nil, List.append_nil]; exact q0
    | succ n ih =>
      intro hn
      obtain ⟨s1, e1, h1, h2⟩ := ih (by omega)
      obtain ⟨s2, e2, h3, h4⟩ := degree_rows hp.tab (by omega) h1 h2
      refine ⟨s2, by rw [forNM, e1, Option.bind_some, e2], h3, ?_⟩
      have : ∀ len, schemeRows len p (n + 1) = schemeRows len p n ++ degRows len (n + 1) (p (n + 1)) := by
        intro len
        unfold schemeRows
        rw [List.range_succ, List.flatMap_append, List.flatMap_singleton, List.append_assoc]
      rw [this, this]
      exact h4
  obtain ⟨s, e, _, h⟩ := key 16 le_rfl
  have hm : blmMaps? fn gn p = some (blmCostCrt p, s) := by
    unfold blmMaps?
    rw [if_neg (by have := hp.inf16; omega), e0, Option.bind_some, e]
    rfl
  obtain ⟨s', e', hr, _⟩ := blmMaps_spec hp
  rw [hm] at e'
  cases e'
  exact ⟨s, hm, hr, h⟩

/-! ### deciding whether the pairs span -/

/-- the pairs `v ≤ w` -/
def pairs (fn gn : Nat) : List (Nat × Nat) := (List.range fn).flatMap fun v => ((List.range gn).filter (v ≤ ·)).map (v, ·)

theorem mem_pairs {fn gn : Nat} {p : Nat × Nat} : p ∈ pairs fn gn ↔ p.1 ≤ p.2 ∧ p.1 < fn ∧ p.2 < gn := by
  unfold pairs
  rw [List.mem_flatMap]
  constructor
  · rintro ⟨v, hv, h⟩
    rw [List.mem_map] at h
    obtain ⟨w, hw, rfl⟩ := h
    rw [List.mem_filter, List.mem_range] at hw
    rw [List.mem_range] at hv
    exact ⟨by simpa using hw.2, hv, hw.1⟩
  · rintro ⟨h1, h2, h3⟩
    exact ⟨p.1, List.mem_range.2 h2, List.mem_map.2 ⟨p.2, List.mem_filter.2 ⟨List.mem_range.2 h3, by simpa using h1⟩, rfl⟩⟩

/-- the products of the pairs, as numbers -/
def pairMasks (fn gn : Nat) (Fs Gs : List Nat) : List Nat :=
  let cF := (List.range fn).map fun v => colMask v Fs
  let cG := (List.range gn).map fun w => colMask w Gs
  (pairs fn gn).map fun p => cF.getD p.1 0 &&& cG.getD p.2 0

/-- reduce `x` by the basis (pairs of the position of the leading bit and the vector) -/
def reduceBy (x : Nat) : List (Nat × Nat) → Nat
  | [] => x
  | b :: B => reduceBy (if x.testBit b.1 then x ^^^ b.2 else x) B

/-- Gauss elimination -/
def elim : List (Nat × Nat) → List Nat → List (Nat × Nat)
  | B, [] => B
  | B, x :: L =>
    let y := reduceBy x B
    if y = 0 then elim B L
    else
      let t := y.log2
      elim ((t, y) :: B.map fun b => (b.1, if b.2.testBit t then b.2 ^^^ y else b.2)) L

theorem maskVec_xor (m x y : Nat) : maskVec m (x ^^^ y) = maskVec m x + maskVec m y := by
  funext k
  show gf2 (Nat.testBit (_ ^^^ _) k) = gf2 _ + gf2 _
  rw [Nat.testBit_xor, gf2_xor]

theorem reduceBy_mem {m : Nat} {S : Submodule (ZMod 2) (Fin m → ZMod 2)} : ∀ (B : List (Nat × Nat)) (x : Nat), (∀ b ∈ B, maskVec m b.2 ∈ S) →
    maskVec m x ∈ S → maskVec m (reduceBy x B) ∈ S := by
  intro B
  induction B with
  | nil => intro x _ h; exact h
  | cons b B ih =>
    intro x hB hx
    refine ih _ (fun c hc => hB c (List.mem_cons_of_mem _ hc)) ?_
    split
    · rw [maskVec_xor]; exact Submodule.add_mem _ hx (hB b List.mem_cons_self)
    · exact hx

theorem elim_mem {m : Nat} {S : Submodule (ZMod 2) (Fin m → ZMod 2)} : ∀ (L : List Nat) (B : List (Nat × Nat)), (∀ b ∈ B, maskVec m b.2 ∈ S) →
    (∀ x ∈ L, maskVec m x ∈ S) → ∀ b ∈ elim B L, maskVec m b.2 ∈ S := by
  intro L
  induction L with
  | nil => intro B hB _; exact hB
  | cons x L ih =>
    intro B hB hL
    have hy := reduceBy_mem B x hB (hL x List.mem_cons_self)
    have hL' := fun y hy => hL y (List.mem_cons_of_mem _ hy)
    show ∀ b ∈ (if reduceBy x B = 0 then elim B L else _), _
    split
    · exact ih B hB hL'
    · refine ih _ ?_ hL'
      intro b hb
      rcases List.mem_cons.1 hb with rfl | hb
      · exact hy
      · obtain ⟨c, hc, rfl⟩ := List.mem_map.1 hb
        show maskVec m (if _ then _ else _) ∈ S
        split
        · rw [maskVec_xor]; exact Submodule.add_mem _ (hB c hc) hy
        · exact hB c hc

/-- all unit vectors were found -/
def fullBasis (m : Nat) (B : List (Nat × Nat)) : Bool := (List.range m).all fun k => B.any fun b => b.2 == 2 ^ k

/-- a vector orthogonal to the basis, if it is not full -/
def killer (m : Nat) (B : List (Nat × Nat)) : Nat :=
  match (List.range m).find? fun c => !(B.any fun b => b.1 == c) with
  | none => 0
  | some c => B.foldl (fun φ b => if b.2.testBit c then φ ^^^ 2 ^ b.1 else φ) (2 ^ c)

/-- the decision: `some true` the pairs span, `some false` they do not -/
def spanDecide (m fn gn : Nat) (Fs Gs : List Nat) : Option Bool :=
  let P := pairMasks fn gn Fs Gs
  let B := elim [] P
  if fullBasis m B then some true
  else
    let φ := killer m B
    if (φ != 0 && decide (φ < 2 ^ m)) && P.all (fun x => !(par m (φ &&& x))) then some false else none

theorem pairMask_vec {fn gn m : Nat} {F G : Nat → Nat → Word} {Fs Gs : List Nat}
    (hF : ∀ k v, k < m → v < fn → gf2Entry F k v = smallBit Fs k v) (hG : ∀ k v, k < m → v < gn → gf2Entry G k v = smallBit Gs k v)
    {v w : Nat} (hv : v < fn) (hw : w < gn) : maskVec m (((List.range fn).map fun v => colMask v Fs).getD v 0 &&&
      ((List.range gn).map fun w => colMask w Gs).getD w 0) = pairVec m F G v w := by
  funext j
  rw [List.getD_eq_getElem _ _ (by rw [List.length_map, List.length_range]; exact hv), List.getD_eq_getElem _ _ (by rw [List.length_map, List.length_range]; exact hw),
    List.getElem_map, List.getElem_map, List.getElem_range, List.getElem_range]
  show gf2 (Nat.testBit (colMask v Fs &&& colMask w Gs) j) = gf2Entry F j v * gf2Entry G j w
  rw [Nat.testBit_and, gf2_and, colMask_bit, colMask_bit, hF _ _ j.2 hv, hG _ _ j.2 hw]

theorem spanDecide_spec {fn gn m : Nat} {F G : Nat → Nat → Word} {Fs Gs : List Nat}
    (hF : ∀ k v, k < m → v < fn → gf2Entry F k v = smallBit Fs k v) (hG : ∀ k v, k < m → v < gn → gf2Entry G k v = smallBit Gs k v)
    {b : Bool} (h : spanDecide m fn gn Fs Gs = some b) : PairsSpan m fn gn F G ↔ b = true := by
  unfold spanDecide at h
  simp only at h
  have hmask : ∀ x ∈ pairMasks fn gn Fs Gs, ∃ v w, v ≤ w ∧ v < fn ∧ w < gn ∧ maskVec m x = pairVec m F G v w := by
    intro x hx
    obtain ⟨p, hp, rfl⟩ := List.mem_map.1 hx
    obtain ⟨h1, h2, h3⟩ := mem_pairs.1 hp
    exact ⟨p.1, p.2, h1, h2, h3, pairMask_vec hF hG h2 h3⟩
  by_cases hfull : fullBasis m (elim [] (pairMasks fn gn Fs Gs)) = true
  · rw [if_pos hfull] at h
    cases h
    refine ⟨fun _ => rfl, fun _ => ?_⟩
    unfold PairsSpan
    rw [eq_top_iff]
    intro x _
    have hB := elim_mem (m := m) (S := Submodule.span (ZMod 2) {x | ∃ v w, v ≤ w ∧ v < fn ∧ w < gn ∧ x = pairVec m F G v w})
      (pairMasks fn gn Fs Gs) [] (fun b hb => absurd hb List.not_mem_nil) (fun x hx => by
        obtain ⟨v, w, h1, h2, h3, h4⟩ := hmask x hx
        exact Submodule.subset_span ⟨v, w, h1, h2, h3, h4⟩)
    have hx : x = ∑ k : Fin m, x k • maskVec m (2 ^ (k : Nat)) := by
      funext j
      rw [Finset.sum_apply, Finset.sum_eq_single j]
      · show x j = x j * gf2 (Nat.testBit (2 ^ (j : Nat)) j)
        rw [Nat.testBit_two_pow_self]
        show x j = x j * 1
        rw [mul_one]
      · intro b _ hb
        show x b * gf2 (Nat.testBit (2 ^ (b : Nat)) j) = 0
        rw [Nat.testBit_two_pow_of_ne (fun hh => hb (Fin.ext hh))]
        show x b * 0 = 0
        rw [mul_zero]
      · intro hh; exact absurd (Finset.mem_univ _) hh
    rw [hx]
    refine Submodule.sum_mem _ fun k _ => Submodule.smul_mem _ _ ?_
    unfold fullBasis at hfull
    rw [List.all_eq_true] at hfull
    obtain ⟨b, hb, he⟩ := List.any_eq_true.1 (hfull k (List.mem_range.2 k.2))
    rw [beq_iff_eq] at he
    rw [← he]
    exact hB b hb
  · rw [if_neg hfull] at h
    set φ := killer m (elim [] (pairMasks fn gn Fs Gs))
    by_cases hc : ((φ != 0 && decide (φ < 2 ^ m)) && (pairMasks fn gn Fs Gs).all (fun x => !(par m (φ &&& x)))) = true
    · rw [if_pos hc] at h
      cases h
      refine ⟨fun hsp => ?_, fun hh => by cases hh⟩
      exfalso
      simp only [Bool.and_eq_true, bne_iff_ne, ne_eq, decide_eq_true_eq, List.all_eq_true, Bool.not_eq_true'] at hc
      obtain ⟨⟨hne, hlt⟩, hall⟩ := hc
      let f : (Fin m → ZMod 2) →ₗ[ZMod 2] ZMod 2 :=
        { toFun := fun x => ∑ k : Fin m, gf2 (φ.testBit k) * x k
          map_add' := fun x y => by simp only [Pi.add_apply, mul_add, sum_add_distrib]
          map_smul' := fun c x => by
            simp only [Pi.smul_apply, smul_eq_mul, RingHom.id_apply, mul_sum]
            exact Finset.sum_congr rfl fun k _ => by ring }
      have hf : ∀ x, f (maskVec m x) = gf2 (par m (φ &&& x)) := by
        intro x
        rw [par_sum]
        have : ∀ a, gf2 ((φ &&& x).testBit a) = gf2 (φ.testBit a) * gf2 (x.testBit a) := fun a => by rw [Nat.testBit_and, gf2_and]
        simp only [this]
        exact Fin.sum_univ_eq_sum_range (fun k => gf2 (φ.testBit k) * gf2 (x.testBit k)) m
      have hker : (⊤ : Submodule (ZMod 2) (Fin m → ZMod 2)) ≤ LinearMap.ker f := by
        rw [← show _ = ⊤ from hsp, Submodule.span_le]
        rintro x ⟨v, w, hvw, hv, hw, rfl⟩
        show f _ = 0
        rw [← pairMask_vec hF hG hv hw, hf, hall _ (List.mem_map.2 ⟨(v, w), mem_pairs.2 ⟨hvw, hv, hw⟩, rfl⟩)]
        rfl
      obtain ⟨i, hi⟩ := Nat.exists_testBit_of_ne_zero hne
      have him : i < m := by
        by_contra hh
        rw [Nat.testBit_lt_two_pow (lt_of_lt_of_le hlt (Nat.pow_le_pow_right (by omega) (by omega)))] at hi
        cases hi
      have h1 : f (Pi.single ⟨i, him⟩ 1) = 1 := by
        show ∑ k : Fin m, gf2 (φ.testBit k) * (Pi.single ⟨i, him⟩ 1 : Fin m → ZMod 2) k = 1
        rw [Finset.sum_eq_single ⟨i, him⟩]
        · rw [Pi.single_eq_same, hi]; rfl
        · intro b _ hb; rw [Pi.single_eq_of_ne hb, mul_zero]
        · intro hh; exact absurd (Finset.mem_univ _) hh
      have h0 : f (Pi.single ⟨i, him⟩ 1) = 0 := hker Submodule.mem_top
      rw [h1] at h0
      exact absurd h0 (by decide)
    · rw [if_neg hc] at h
      cases h

/-! ### the outcome for given lengths -/

/-- `some 0`: `crt_init` returns the zero scheme; `some 1`: `blm_init_crt` returns; `some 2`: it does not -/
def smallOutcome (f g : Nat) : Option Nat :=
  (crtInit? f g).bind fun p =>
    let l := (List.range 17).map p
    if l.all (· == 0) then some 0
    else if f ≤ g ∧ p 0 ≤ f then
      (spanDecide (blmCostCrt p) f g (schemeRows f (fun d => l.getD d 0) 16) (schemeRows g (fun d => l.getD d 0) 16)).map fun b => if b then 1 else 2
    else some 2

theorem tab_getD {p : Nat → Nat} {d : Nat} (h : d < 17) : ((List.range 17).map p).getD d 0 = p d := by
  rw [List.getD_eq_getElem _ _ (by rw [List.length_map, List.length_range]; exact h), List.getElem_map, List.getElem_range]

theorem schemeRows_congr {p q : Nat → Nat} (h : ∀ d, d < 17 → p d = q d) (len : Nat) : schemeRows len p 16 = schemeRows len q 16 := by
  unfold schemeRows
  rw [h 0 (by omega)]
  congr 1
  rw [List.flatMap_def, List.flatMap_def]
  congr 1
  refine List.map_congr_left fun e he => ?_
  rw [List.mem_range] at he
  rw [h (e + 1) (by omega)]

/-- soundness of the table -/
theorem smallOutcome_spec {f g n : Nat} (h : smallOutcome f g = some n) : ∃ p, crtInit? f g = some p ∧
    (n = 0 → ∀ d, d < 17 → p d = 0) ∧
    (n ≠ 0 → (∃ d, p d ≠ 0) ∧ ((¬ f ≤ g ∨ ¬ p 0 ≤ f) ∧ n = 2 ∨ f ≤ g ∧ p 0 ≤ f ∧ ∀ s, blmMaps? f g p = some (blmCostCrt p, s) → SchemeOk f g p →
      (PairsSpan (blmCostCrt p) f g s.F s.G ↔ n = 1))) := by
  unfold smallOutcome at h
  rw [Option.bind_eq_some_iff] at h
  obtain ⟨p, hp, h⟩ := h
  refine ⟨p, hp, ?_⟩
  have h : (if ((List.range 17).map p).all (· == 0) = true then some 0
    else if f ≤ g ∧ p 0 ≤ f then
      (spanDecide (blmCostCrt p) f g (schemeRows f (fun d => ((List.range 17).map p).getD d 0) 16)
        (schemeRows g (fun d => ((List.range 17).map p).getD d 0) 16)).map fun b => if b = true then 1 else 2
    else some 2) = some n := h
  by_cases hz : ((List.range 17).map p).all (· == 0) = true
  · rw [if_pos hz] at h
    cases h
    refine ⟨fun _ d hd => ?_, fun h => absurd rfl h⟩
    rw [List.all_eq_true] at hz
    have := hz (p d) (List.mem_map.2 ⟨d, List.mem_range.2 hd, rfl⟩)
    simpa using this
  · rw [if_neg hz] at h
    have hne : ∃ d, p d ≠ 0 := by
      by_contra hh
      push Not at hh
      refine hz (List.all_eq_true.2 fun x hx => ?_)
      obtain ⟨d, _, rfl⟩ := List.mem_map.1 hx
      rw [hh d]; rfl
    by_cases hc : f ≤ g ∧ p 0 ≤ f
    · rw [if_pos hc, Option.map_eq_some_iff] at h
      obtain ⟨b, hb, rfl⟩ := h
      rw [schemeRows_congr (q := p) (fun d hd => tab_getD hd), schemeRows_congr (q := p) (fun d hd => tab_getD hd)] at hb
      have hn : (if b = true then (1 : Nat) else 2) = 1 ↔ b = true := by cases b <;> decide
      refine ⟨fun h0 => absurd h0 (by split <;> omega), fun _ => ⟨hne, Or.inr ⟨hc.1, hc.2, fun s hs hok => ?_⟩⟩⟩
      rw [hn]
      obtain ⟨s', e', hr, hrows⟩ := blmMaps_rows hok
      rw [hs] at e'
      cases e'
      exact spanDecide_spec (fun k v hk hv => hrows.F k v (by omega) hv) (fun k v hk hv => hrows.G k v (by omega) hv) hb
    · rw [if_neg hc] at h
      cases h
      refine ⟨fun h0 => by omega, fun _ => ⟨hne, Or.inl ⟨by tauto, rfl⟩⟩⟩

/-- the lengths for which multiplication by evaluation works, as far as the table below goes -/
def SmallGood (f g : Nat) : Prop := f ≤ g ∧ (f = 2 ∧ g ≤ 5 ∨ f = 3 ∧ g ≤ 10 ∨ f = 4 ∧ 5 ≤ g ∨ 5 ≤ f)

instance (f g : Nat) : Decidable (SmallGood f g) := by unfold SmallGood; infer_instance

/-- the table agrees with `SmallGood` -/
def rowOk (good : Bool) : Option Nat → Bool
  | none => false
  | some n => decide (n < 3) && (n == 1) == good

theorem rowOk_spec {good : Bool} {o : Option Nat} (h : rowOk good o = true) : ∃ n, o = some n ∧ n < 3 ∧ (n = 1 ↔ good = true) := by
  cases o with
  | none => cases h
  | some n =>
    simp only [rowOk, Bool.and_eq_true, decide_eq_true_eq, beq_iff_eq] at h
    exact ⟨n, rfl, h.1, by rw [← h.2, beq_iff_eq]⟩

set_option maxRecDepth 100000 in
set_option maxHeartbeats 4000000 in
theorem smallTable : ∀ f < 16, ∀ g < 16, rowOk (decide (SmallGood (f + 1) (g + 1))) (smallOutcome (f + 1) (g + 1)) = true := by decide +kernel

theorem smallOutcome_table {f g : Nat} (hf : 1 ≤ f) (hf' : f ≤ 16) (hg : 1 ≤ g) (hg' : g ≤ 16) :
    ∃ n, smallOutcome f g = some n ∧ n < 3 ∧ (n = 1 ↔ SmallGood f g) := by
  have h := rowOk_spec (smallTable (f - 1) (by omega) (g - 1) (by omega))
  rw [Nat.sub_add_cancel hf, Nat.sub_add_cancel hg] at h
  obtain ⟨n, h1, h2, h3⟩ := h
  exact ⟨n, h1, h2, h3.trans decide_eq_true_iff⟩

end M4rie
