import Verif.Proofs.BlmInit

/-! The scheme with a single modulus, used by the field multiplication. -/

namespace M4rie
open Polynomial Spec Finset

theorem crtSingle_self (d : Nat) : crtSingle d d = 1 := if_pos rfl
theorem crtSingle_ne {d e : Nat} (h : e ≠ d) : crtSingle d e = 0 := if_neg h

theorem irredCount_pos : ∀ d, 1 ≤ d → d ≤ 16 → 0 < irredCount d := by decide

theorem crtSingle_ok {d : Nat} (h1 : 1 ≤ d) (h2 : d ≤ 16) : SchemeOk d d (crtSingle d) := by
  have h0 : crtSingle d 0 = 0 := crtSingle_ne (by omega)
  refine ⟨by omega, by omega, by omega, fun e he1 he2 => ?_⟩
  by_cases h : e = d
  · rw [h, crtSingle_self]; exact irredCount_pos d h1 h2
  · rw [crtSingle_ne h]; omega

theorem crtSingle_cost {d : Nat} (h1 : 1 ≤ d) (h2 : d ≤ 16) : blmCostCrt (crtSingle d) = crtCost d := by
  rw [blmCostCrt_eq, crtSingle_ne (by omega : (0 : Nat) ≠ d), sum_eq_single (d - 1)]
  · rw [show d - 1 + 1 = d by omega, crtSingle_self, mul_one]
    show 0 + crtCost d = crtCost d
    omega
  · intro e _ he; rw [crtSingle_ne (by omega), mul_zero]
  · intro hh; rw [mem_range] at hh; omega

theorem crtSingle_maps {d : Nat} (h1 : 1 ≤ d) (h2 : d ≤ 16) : ∃ s L, blmMaps? d d (crtSingle d) = some (crtCost d, s) ∧ smallMap? d = some L ∧
    L.length = crtCost d ∧ (∀ k v, k < crtCost d → v < d → gf2Entry s.F k v = smallBit L k v) ∧
    ∀ k v, k < crtCost d → v < d → gf2Entry s.G k v = smallBit L k v := by
  have h0 : crtSingle d 0 = 0 := crtSingle_ne (by omega)
  set s0 : CrtState := ⟨zeroW, zeroW, 0, fun _ => 0⟩ with hs0
  have hcnt := irredCount_pos d h1 h2
  have hmod := crtModulus_spec (it := s0.it) (d := d) h1 hcnt
  obtain ⟨hd1, hd2⟩ := tab_irred (e := d) (j := 0) hcnt
  have hm : MinOK (BitVec.ofNat 64 ((irredTable d).getD 0 0)) d := ⟨hd1, by omega, by omega⟩
  obtain ⟨N, L, eN, eL, hL, hN⟩ := smallMapMzd_spec h1 h2
  obtain ⟨MF, eF, hF⟩ := crtModredMat_spec hm d
  obtain ⟨s', e, hr, hit, bF, bG, _⟩ := addBlock_spec hL hN eF eF { s0 with it := setP s0.it d (s0.it d + 1) }
  have hdeg : crtDegree? d d (crtSingle d) d s0 = some s' := by
    unfold crtDegree?
    rw [crtSingle_self, if_neg (by omega), eN, Option.bind_some]
    show Option.bind (some s0) _ = _
    rw [Option.bind_some]
    show (crtModulus? s0.it d).bind _ = _
    rw [hmod, Option.bind_some]
    exact e
  have loop : ∀ n, n ≤ 16 → forNM (fun e s => crtDegree? d d (crtSingle d) (e + 1) s) n s0 = some (if n < d then s0 else s') := by
    intro n
    induction n with
    | zero => intro _; rw [if_pos (by omega)]; rfl
    | succ n ih =>
      intro hn
      rw [forNM, ih (by omega), Option.bind_some]
      by_cases hnd : n + 1 = d
      · rw [if_pos (by omega), if_neg (by omega), hnd]; exact hdeg
      · have : ∀ s, crtDegree? d d (crtSingle d) (n + 1) s = some s := by
          intro s; unfold crtDegree?; rw [if_pos (crtSingle_ne hnd)]
        rw [this]
        by_cases hlt : n < d
        · rw [if_pos hlt, if_pos (by omega)]
        · rw [if_neg hlt, if_neg (by omega)]
  have hsel : ∀ k, ∀ v, v < d → ∑ a ∈ range d, smallBit L k a * gf2Entry MF a v = smallBit L k v := by
    intro k v hv
    have hmodv : (X ^ v % toPoly (BitVec.ofNat 64 ((irredTable d).getD 0 0)) : (ZMod 2)[X]) = X ^ v := by
      rw [Polynomial.mod_eq_self_iff hm.ne0, hm.degree, degree_X_pow]
      exact_mod_cast hv
    rw [sum_eq_single v]
    · rw [hF, if_pos hv, hmodv, coeff_X_pow, if_pos rfl, mul_one]
    · intro a _ ha
      rw [hF, if_pos hv, hmodv, coeff_X_pow, if_neg ha, mul_zero]
    · intro hh; exact absurd (mem_range.2 hv) hh
  refine ⟨s', L, ?_, eL, hL, ?_, ?_⟩
  · unfold blmMaps?
    rw [if_neg (by omega)]
    unfold crtInfinity?
    rw [if_neg (not_not.2 h0), Option.bind_some, loop 16 le_rfl, if_neg (by omega), Option.map_some, crtSingle_cost h1 h2]
  · intro k v hk hv
    have := bF k (by omega) v hv
    rw [show (s0.r : Nat) + k = k from Nat.zero_add k] at this
    rw [this]; exact hsel k v hv
  · intro k v hk hv
    have := bG k (by omega) v hv
    rw [show (s0.r : Nat) + k = k from Nat.zero_add k] at this
    rw [this]; exact hsel k v hv

/-! ### the pairs span -/

/-- a mask as a vector -/
def maskVec (m x : Nat) : Fin m → ZMod 2 := fun k => gf2 (x.testBit k)

theorem maskVec_selXor (m : Nat) : ∀ (L : List Nat) (s : Nat), maskVec m (selXor L s) ∈ Submodule.span (ZMod 2) {y | ∃ x ∈ L, y = maskVec m x} := by
  intro L
  induction L with
  | nil =>
    intro s
    have : maskVec m (selXor [] s) = 0 := by funext k; show gf2 (Nat.testBit 0 k) = 0; rw [Nat.zero_testBit]; rfl
    rw [this]; exact Submodule.zero_mem _
  | cons x L ih =>
    intro s
    have e : maskVec m (selXor (x :: L) s) = maskVec m (if s.testBit 0 then x else 0) + maskVec m (selXor L (s / 2)) := by
      funext k
      show gf2 (Nat.testBit (_ ^^^ _) k) = gf2 _ + gf2 _
      rw [Nat.testBit_xor, gf2_xor]
    rw [e]
    refine Submodule.add_mem _ ?_ (Submodule.span_mono ?_ (ih (s / 2)))
    · by_cases h : s.testBit 0
      · rw [if_pos h]; exact Submodule.subset_span ⟨x, List.mem_cons_self, rfl⟩
      · rw [if_neg h]
        have : maskVec m 0 = 0 := by funext k; show gf2 (Nat.testBit 0 k) = 0; rw [Nat.zero_testBit]; rfl
        rw [this]; exact Submodule.zero_mem _
    · rintro y ⟨z, hz, rfl⟩; exact ⟨z, List.mem_cons_of_mem _ hz, rfl⟩

theorem colMask_bit (a : Nat) : ∀ (N : List Nat) (k : Nat), gf2 ((colMask a N).testBit k) = smallBit N k a := by
  intro N
  induction N with
  | nil => intro k; simp [colMask, smallBit]
  | cons n N ih =>
    intro k
    have e : colMask a (n :: N) = 2 * colMask a N + (if n.testBit a then 1 else 0) := rfl
    cases k with
    | zero =>
      rw [e, Nat.testBit_zero]
      show _ = gf2 (n.testBit a)
      congr 1
      by_cases h : n.testBit a = true
      · rw [if_pos h, h]; exact decide_eq_true (by omega)
      · rw [if_neg h, Bool.not_eq_true] at *
        rw [h]; exact decide_eq_false (by omega)
    | succ k =>
      rw [e, Nat.testBit_succ, show (2 * colMask a N + (if n.testBit a then 1 else 0)) / 2 = colMask a N by split <;> omega, ih]
      simp [smallBit]

theorem mem_pairList {d : Nat} {p : Nat × Nat} (h : p ∈ pairList d) : p.1 ≤ p.2 ∧ p.1 < d ∧ p.2 < d := by
  unfold pairList at h
  rw [List.mem_flatMap] at h
  obtain ⟨v, hv, h⟩ := h
  rw [List.mem_map] at h
  obtain ⟨w, hw, rfl⟩ := h
  rw [List.mem_filter, List.mem_range] at hw
  rw [List.mem_range] at hv
  exact ⟨by simpa using hw.2, hv, hw.1⟩

theorem pairsSpan_small {d : Nat} {L : List Nat} (h : smallMap? d = some L) {F G : Nat → Nat → Word}
    (hF : ∀ k v, k < L.length → v < d → gf2Entry F k v = smallBit L k v) (hG : ∀ k v, k < L.length → v < d → gf2Entry G k v = smallBit L k v) :
    PairsSpan L.length d d F G := by
  have hc := spanCheck_small d L h
  unfold spanCheck at hc
  simp only [Bool.and_eq_true, beq_iff_eq, List.all_eq_true, List.mem_range] at hc
  unfold PairsSpan
  rw [eq_top_iff]
  intro x _
  have hx : x = ∑ k : Fin L.length, x k • maskVec L.length (1 <<< (k : Nat)) := by
    funext j
    rw [Finset.sum_apply, Finset.sum_eq_single j]
    · show x j = x j * gf2 (Nat.testBit (1 <<< (j : Nat)) j)
      rw [Nat.one_shiftLeft, Nat.testBit_two_pow_self]
      show x j = x j * 1
      rw [mul_one]
    · intro b _ hb
      show x b * gf2 (Nat.testBit (1 <<< (b : Nat)) j) = 0
      rw [Nat.one_shiftLeft, Nat.testBit_two_pow_of_ne (fun hh => hb (Fin.ext hh))]
      show x b * 0 = 0
      rw [mul_zero]
    · intro hh; exact absurd (Finset.mem_univ _) hh
  rw [hx]
  refine Submodule.sum_mem _ fun k _ => Submodule.smul_mem _ _ ?_
  rw [← hc.2 k k.2]
  refine Submodule.span_mono ?_ (maskVec_selXor _ _ _)
  rintro y ⟨z, hz, rfl⟩
  rw [List.mem_map] at hz
  obtain ⟨p, hp, rfl⟩ := hz
  obtain ⟨hle, hv, hw⟩ := mem_pairList hp
  refine ⟨p.1, p.2, hle, hv, hw, ?_⟩
  funext j
  show gf2 (Nat.testBit (colMask p.1 L &&& colMask p.2 L) j) = gf2Entry F j p.1 * gf2Entry G j p.2
  rw [Nat.testBit_and, gf2_and, colMask_bit, colMask_bit, hF _ _ j.2 hv, hG _ _ j.2 hw]

theorem kills_small {d : Nat} {L : List Nat} (h : smallMap? d = some L) {F G : Nat → Nat → Word}
    (hF : ∀ k v, k < L.length → v < d → gf2Entry F k v = smallBit L k v) (hG : ∀ k v, k < L.length → v < d → gf2Entry G k v = smallBit L k v)
    (l : Nat → Nat → ZMod 2) (hl : Kills L.length d d F G l) : prodPoly d d l = 0 := by
  have sel : ∀ k v, v < d → smallBit L k v = ∑ a ∈ range d, smallBit L k a * if v = a then 1 else 0 := by
    intro k v hv
    rw [sum_eq_single v]
    · rw [if_pos rfl, mul_one]
    · intro a _ ha; rw [if_neg (Ne.symm ha), mul_zero]
    · intro hh; exact absurd (mem_range.2 hv) hh
  have bF : BlockRows F 0 d d L fun v a => if v = a then 1 else 0 := fun k hk v hv => by rw [zero_add, hF k v hk hv]; exact sel k v hv
  have bG : BlockRows G 0 d d L fun v a => if v = a then 1 else 0 := fun k hk v hv => by rw [zero_add, hG k v hk hv]; exact sel k v hv
  ext t
  rw [prodPoly_coeff, coeff_zero]
  refine Eq.trans ?_ (block_zero h bF bG (by rw [zero_add]; exact hl) t)
  refine Finset.sum_congr rfl fun v hv => Finset.sum_congr rfl fun w hw => congrArg (l v w * ·) ?_
  rw [sum_eq_single v, sum_eq_single w]
  · simp
  · intro b _ hb; simp [Ne.symm hb]
  · intro hh; exact absurd hw hh
  · intro a _ ha; simp [Ne.symm ha]
  · intro hh; exact absurd hv hh

/-- `blm_init_crt(ff,d,d,p,djb)` with `p[d] = 1` returns -/
theorem blmInit_single {env : BlmEnv} (henv : BlmEnvOk env) {fuel d : Nat} (h1 : 1 ≤ d) (h2 : d ≤ 16) (hfuel : d * d ≤ fuel)
    {ff : Option Gf2e} (hff : ∀ f, ff = some f → MinOK f.minpoly f.degree) (djb : Bool) :
    ∃ f, blmInitCrt? env fuel ff d d (crtSingle d) djb = some f ∧ BlmExact (blmRows d d ff) (blmVal ff) d d f ∧ DjbOk f ∧ f.F.nrows = crtCost d := by
  obtain ⟨s, L, e, eL, hL, hF, hG⟩ := crtSingle_maps h1 h2
  obtain ⟨f, ef⟩ := blmInit_some henv (fuel := fuel) h1 le_rfl (s := s) (by rw [e, crtSingle_cost h1 h2])
    (by
      rw [crtSingle_cost h1 h2, ← hL]
      exact pairsSpan_small eL (fun k v hk hv => hF k v (by omega) hv) (fun k v hk hv => hG k v (by omega) hv)) hfuel hff djb
  refine ⟨f, ef, blmInit_exact' henv e (fun l hl => ?_) hff ef⟩
  rw [← hL] at hl
  exact kills_small eL (fun k v hk hv => hF k v (by omega) hv) (fun k v hk hv => hG k v (by omega) hv) l hl

end M4rie
