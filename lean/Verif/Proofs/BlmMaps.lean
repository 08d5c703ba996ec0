import Verif.Proofs.BlmModred
import Verif.Proofs.BlmCheck
import Verif.Props.Irred
import Mathlib.RingTheory.Polynomial.Basic
import Mathlib.Data.List.GetD
import Mathlib.RingTheory.PrincipalIdealDomain

/-! The maps `F`, `G` computed by `blm_init_crt` determine the product polynomial. -/

namespace M4rie
open Polynomial Spec Finset

/-! ### certificates -/

/-- entry `(k,a)` of a small multiplication map -/
def smallBit (N : List Nat) (k a : Nat) : ZMod 2 := gf2 ((N.getD k 0).testBit a)

theorem recMask_sum (a b t : Nat) : ∀ (N R : List Nat), N.length = R.length →
    gf2 ((recMask a b N R).testBit t) = ∑ k ∈ range N.length, smallBit R k t * (smallBit N k a * smallBit N k b) := by
  intro N
  induction N with
  | nil => intro R _; simp [recMask, gf2]
  | cons n N ih =>
    intro R h
    match R, h with
    | r :: R, h =>
      rw [recMask, Nat.testBit_xor, gf2_xor, ih R (by simpa using h), List.length_cons, Finset.sum_range_succ' (f := fun k => smallBit (r :: R) k t * (smallBit (n :: N) k a * smallBit (n :: N) k b))]
      refine (add_comm _ _).trans (congrArg₂ (· + ·) (sum_congr rfl fun k _ => by simp [smallBit]) ?_)
      show _ = gf2 (r.testBit t) * (gf2 (n.testBit a) * gf2 (n.testBit b))
      cases n.testBit a <;> cases n.testBit b <;> simp [gf2]

theorem small_rec {d : Nat} {N : List Nat} (h : smallMap? d = some N) {a b : Nat} (ha : a < d) (hb : b < d) (t : Nat) :
    ∑ k ∈ range N.length, smallBit (smallRec d) k t * (smallBit N k a * smallBit N k b) = if a + b = t then 1 else 0 := by
  have hc := recCheck_small d N h
  unfold recCheck at hc
  simp only [Bool.and_eq_true, beq_iff_eq, List.all_eq_true, List.mem_range] at hc
  rw [← recMask_sum a b t N _ hc.1.1, hc.2 a ha b hb, Nat.one_shiftLeft]
  by_cases ht : a + b = t
  · rw [if_pos ht, ht, Nat.testBit_two_pow_self]; rfl
  · rw [if_neg ht, Nat.testBit_two_pow_of_ne ht]; rfl

theorem small_rec_sum {d : Nat} {N : List Nat} (h : smallMap? d = some N) (x y : Nat → ZMod 2) (t : Nat) :
    ∑ k ∈ range N.length, smallBit (smallRec d) k t * ((∑ a ∈ range d, smallBit N k a * x a) * (∑ b ∈ range d, smallBit N k b * y b)) =
      ∑ a ∈ range d, ∑ b ∈ range d, if a + b = t then x a * y b else 0 := by
  have e : ∀ k, smallBit (smallRec d) k t * ((∑ a ∈ range d, smallBit N k a * x a) * (∑ b ∈ range d, smallBit N k b * y b)) =
      ∑ a ∈ range d, ∑ b ∈ range d, (smallBit (smallRec d) k t * (smallBit N k a * smallBit N k b)) * (x a * y b) := by
    intro k
    rw [sum_mul_sum, mul_sum]
    refine sum_congr rfl fun a _ => ?_
    rw [mul_sum]
    refine sum_congr rfl fun b _ => ?_
    ring
  rw [sum_congr rfl fun k _ => e k, sum_comm]
  refine sum_congr rfl fun a ha => ?_
  rw [sum_comm]
  refine sum_congr rfl fun b hb => ?_
  rw [mem_range] at ha hb
  rw [← sum_mul, small_rec h ha hb]
  by_cases ht : a + b = t
  · rw [if_pos ht, if_pos ht, one_mul]
  · rw [if_neg ht, if_neg ht, zero_mul]

/-! ### relations between the products `x^v * x^w` -/

/-- the polynomial `∑ l v w * x^(v+w)` -/
noncomputable def prodPoly (fn gn : Nat) (l : Nat → Nat → ZMod 2) : (ZMod 2)[X] :=
  ∑ v ∈ range fn, ∑ w ∈ range gn, C (l v w) * X ^ (v + w)

/-- the combination `l` of the pairs vanishes on the first `m` products -/
def Kills (m fn gn : Nat) (F G : Nat → Nat → Word) (l : Nat → Nat → ZMod 2) : Prop :=
  ∀ k, k < m → ∑ v ∈ range fn, ∑ w ∈ range gn, l v w * (gf2Entry F k v * gf2Entry G k w) = 0

theorem coeff_mul_range {p q : (ZMod 2)[X]} {d : Nat} (hp : p.degree < (d : WithBot ℕ)) (hq : q.degree < (d : WithBot ℕ)) (t : Nat) :
    (p * q).coeff t = ∑ a ∈ range d, ∑ b ∈ range d, if a + b = t then p.coeff a * q.coeff b else 0 := by
  have ep : p = ∑ a ∈ range d, C (p.coeff a) * X ^ a := by
    ext i
    rw [finsetSum_coeff]
    simp only [coeff_C_mul, coeff_X_pow, mul_ite, mul_one, mul_zero]
    rw [Finset.sum_ite_eq]
    by_cases h : i < d
    · rw [if_pos (mem_range.2 h)]
    · rw [if_neg (by rwa [mem_range]), coeff_eq_zero_of_degree_lt (lt_of_lt_of_le hp (by exact_mod_cast (by omega)))]
  have eq : q = ∑ a ∈ range d, C (q.coeff a) * X ^ a := by
    ext i
    rw [finsetSum_coeff]
    simp only [coeff_C_mul, coeff_X_pow, mul_ite, mul_one, mul_zero]
    rw [Finset.sum_ite_eq]
    by_cases h : i < d
    · rw [if_pos (mem_range.2 h)]
    · rw [if_neg (by rwa [mem_range]), coeff_eq_zero_of_degree_lt (lt_of_lt_of_le hq (by exact_mod_cast (by omega)))]
  conv_lhs => rw [ep, eq]
  rw [sum_mul_sum, finsetSum_coeff]
  refine sum_congr rfl fun a _ => ?_
  rw [finsetSum_coeff]
  refine sum_congr rfl fun b _ => ?_
  rw [show C (p.coeff a) * X ^ a * (C (q.coeff b) * X ^ b) = C (p.coeff a * q.coeff b) * X ^ (a + b) by rw [C_mul, pow_add]; ring,
    coeff_C_mul, coeff_X_pow]
  by_cases h : a + b = t
  · rw [if_pos h, if_pos h.symm, mul_one]
  · rw [if_neg h, if_neg (fun h' => h h'.symm), mul_zero]

/-- the rows `r..r+c-1` of `F` are the products of a small map with the linear forms `x v` -/
def BlockRows (F : Nat → Nat → Word) (r fn d : Nat) (N : List Nat) (x : Nat → Nat → ZMod 2) : Prop :=
  ∀ k, k < N.length → ∀ v, v < fn → gf2Entry F (r + k) v = ∑ a ∈ range d, smallBit N k a * x v a

theorem block_zero {d : Nat} {N : List Nat} (h : smallMap? d = some N) {F G : Nat → Nat → Word} {r fn gn : Nat} {x y : Nat → Nat → ZMod 2}
    (hF : BlockRows F r fn d N x) (hG : BlockRows G r gn d N y) {l : Nat → Nat → ZMod 2} (hl : Kills (r + N.length) fn gn F G l) (t : Nat) :
    ∑ v ∈ range fn, ∑ w ∈ range gn, l v w * ∑ a ∈ range d, ∑ b ∈ range d, (if a + b = t then x v a * y w b else 0) = 0 := by
  have e : ∀ v ∈ range fn, ∀ w ∈ range gn, l v w * ∑ a ∈ range d, ∑ b ∈ range d, (if a + b = t then x v a * y w b else 0) =
      ∑ k ∈ range N.length, smallBit (smallRec d) k t * (l v w * (gf2Entry F (r + k) v * gf2Entry G (r + k) w)) := by
    intro v hv w hw
    rw [mem_range] at hv hw
    rw [← small_rec_sum h, mul_sum]
    refine sum_congr rfl fun k hk => ?_
    rw [mem_range] at hk
    rw [hF k hk v hv, hG k hk w hw]
    ring
  rw [sum_congr rfl fun v hv => sum_congr rfl fun w hw => e v hv w hw]
  rw [sum_congr rfl fun v _ => sum_comm, sum_comm]
  refine sum_eq_zero fun k hk => ?_
  rw [mem_range] at hk
  simp only [← mul_sum]
  rw [hl (r + k) (by omega), mul_zero]

theorem modSub_dvd (p q : (ZMod 2)[X]) : q ∣ p - p % q := by
  have := EuclideanDomain.div_add_mod p q
  exact ⟨p / q, by linear_combination -this⟩

theorem block_dvd {d : Nat} {N : List Nat} (h : smallMap? d = some N) {poly : Word} (hm : MinOK poly d) {F G : Nat → Nat → Word} {r fn gn : Nat}
    (hF : BlockRows F r fn d N fun v a => (X ^ v % toPoly poly : (ZMod 2)[X]).coeff a)
    (hG : BlockRows G r gn d N fun v a => (X ^ v % toPoly poly : (ZMod 2)[X]).coeff a)
    {l : Nat → Nat → ZMod 2} (hl : Kills (r + N.length) fn gn F G l) : toPoly poly ∣ prodPoly fn gn l := by
  have hdeg : ∀ v : Nat, (X ^ v % toPoly poly : (ZMod 2)[X]).degree < (d : WithBot ℕ) := by
    intro v; rw [← hm.degree]; exact degree_mod_lt _ hm.ne0
  have hS : ∑ v ∈ range fn, ∑ w ∈ range gn, C (l v w) * ((X ^ v % toPoly poly) * (X ^ w % toPoly poly)) = 0 := by
    ext t
    rw [finsetSum_coeff, coeff_zero, ← block_zero h hF hG hl t]
    refine sum_congr rfl fun v _ => ?_
    rw [finsetSum_coeff]
    refine sum_congr rfl fun w _ => ?_
    rw [coeff_C_mul, coeff_mul_range (hdeg v) (hdeg w)]
  rw [← sub_zero (prodPoly fn gn l), ← hS]
  unfold prodPoly
  rw [← sum_sub_distrib]
  refine dvd_sum fun v _ => ?_
  rw [← sum_sub_distrib]
  refine dvd_sum fun w _ => ?_
  rw [← mul_sub, pow_add]
  refine dvd_mul_of_dvd_right ?_ _
  have h1 : toPoly poly ∣ X ^ v - X ^ v % toPoly poly := modSub_dvd _ _
  have h2 : toPoly poly ∣ X ^ w - X ^ w % toPoly poly := modSub_dvd _ _
  have : (X ^ v * X ^ w - X ^ v % toPoly poly * (X ^ w % toPoly poly) : (ZMod 2)[X]) =
      (X ^ v - X ^ v % toPoly poly) * X ^ w + X ^ v % toPoly poly * (X ^ w - X ^ w % toPoly poly) := by ring
  rw [this]
  exact dvd_add (dvd_mul_of_dvd_left h1 _) (dvd_mul_of_dvd_right h2 _)

theorem prodPoly_coeff (fn gn : Nat) (l : Nat → Nat → ZMod 2) (t : Nat) :
    (prodPoly fn gn l).coeff t = ∑ v ∈ range fn, ∑ w ∈ range gn, l v w * if v + w = t then 1 else 0 := by
  unfold prodPoly
  rw [finsetSum_coeff]
  refine sum_congr rfl fun v _ => ?_
  rw [finsetSum_coeff]
  refine sum_congr rfl fun w _ => ?_
  rw [coeff_C_mul, coeff_X_pow]
  congr 1
  exact if_congr eq_comm rfl rfl

theorem block_inf {d : Nat} {N : List Nat} (h : smallMap? d = some N) {F G : Nat → Nat → Word} {r fn gn : Nat}
    (hF : BlockRows F r fn d N fun v a => if v + a + 1 = fn then 1 else 0)
    (hG : BlockRows G r gn d N fun v a => if v + a + 1 = gn then 1 else 0)
    {l : Nat → Nat → ZMod 2} (hl : Kills (r + N.length) fn gn F G l) {t : Nat} (ht : t < d) (hfg : t + 2 ≤ fn + gn) :
    (prodPoly fn gn l).coeff (fn + gn - 2 - t) = 0 := by
  rw [prodPoly_coeff]
  refine Eq.trans ?_ (block_zero h hF hG hl t)
  refine sum_congr rfl fun v hv => sum_congr rfl fun w hw => congrArg (l v w * ·) ?_
  rw [mem_range] at hv hw
  by_cases hc : v + w = fn + gn - 2 - t
  · rw [if_pos hc]
    symm
    rw [sum_eq_single (fn - 1 - v), sum_eq_single (gn - 1 - w)]
    · rw [if_pos (by omega), if_pos (by omega), if_pos (by omega), mul_one]
    · intro b _ hb
      by_cases hab : fn - 1 - v + b = t
      · rw [if_pos hab, if_neg (by omega : ¬ w + b + 1 = gn), mul_zero]
      · rw [if_neg hab]
    · intro hh; rw [mem_range] at hh; omega
    · intro a _ ha
      refine sum_eq_zero fun b _ => ?_
      by_cases hab : a + b = t
      · rw [if_pos hab, if_neg (by omega : ¬ v + a + 1 = fn), zero_mul]
      · rw [if_neg hab]
    · intro hh; rw [mem_range] at hh; omega
  · rw [if_neg hc]
    symm
    apply Finset.sum_eq_zero; intro a _
    apply Finset.sum_eq_zero; intro b _
    by_cases hab : a + b = t
    · rw [if_pos hab]
      by_cases h1 : v + a + 1 = fn
      · rw [if_neg (by omega : ¬ w + b + 1 = gn), mul_zero]
      · rw [if_neg h1, zero_mul]
    · rw [if_neg hab]

/-! ### the rows added for one modulus -/

theorem mulRows_entry (F : Nat → Nat → Word) (r c K n : Nat) (N M : Nat → Nat → Word) (i v : Nat) :
    gf2Entry (mzdMulRows F r c K n N M) i v = if r ≤ i ∧ i < r + c ∧ v < n then ∑ l ∈ range K, gf2Entry N (i - r) l * gf2Entry M l v
      else gf2Entry F i v := by
  show gf2 (bitAt (mzdMulRows F r c K n N M) i v) = _
  unfold mzdMulRows
  rw [bitAt_ofBits]
  by_cases h : r ≤ i ∧ i < r + c ∧ v < n
  · rw [if_pos h, if_pos h, xorRange_sum, ← gf2Hom_apply]
    refine (map_sum gf2Hom _ _).trans ?_
    exact sum_congr rfl fun l _ => map_mul gf2Hom _ _
  · rw [if_neg h, if_neg h]; rfl

theorem smallMapMzd_spec {d : Nat} (h1 : 1 ≤ d) (h2 : d ≤ 16) : ∃ N L, smallMapMzd? d = some N ∧ smallMap? d = some L ∧ L.length = crtCost d ∧
    ∀ k a, a < d → gf2Entry N.w k a = smallBit L k a := by
  obtain ⟨L, e, hL⟩ := smallMap_length d h1 h2
  refine ⟨_, L, by unfold smallMapMzd?; rw [e, Option.map_some], e, hL, fun k a ha => ?_⟩
  show gf2 ((if a / 64 = 0 then BitVec.ofNat 64 (L.getD k 0) else 0#64).getLsbD (a % 64)) = gf2 _
  rw [if_pos (by omega), BitVec.getLsbD_ofNat, show a % 64 = a by omega, decide_eq_true (by omega : a < 64), Bool.true_and]

/-- the pair of maps restricts the product polynomial: `Q` divides it, and its top `ω` coefficients vanish -/
def Restricts (fn gn : Nat) (s : CrtState) (Q : (ZMod 2)[X]) (ω : Nat) : Prop :=
  ∀ l, Kills s.r fn gn s.F s.G l → Q ∣ prodPoly fn gn l ∧ ∀ t, t < ω → (prodPoly fn gn l).coeff (fn + gn - 2 - t) = 0

theorem addBlock_spec {fn gn d : Nat} {N : Mzd} {L : List Nat} (hL : L.length = crtCost d)
    (hN : ∀ k a, a < d → gf2Entry N.w k a = smallBit L k a) {poly : Word} {MF MG : Nat → Nat → Word}
    (eF : crtModredMat? fn poly d = some MF) (eG : crtModredMat? gn poly d = some MG) (s : CrtState) :
    ∃ s', crtAddBlock? fn gn N poly d s = some s' ∧ s'.r = s.r + L.length ∧ s'.it = s.it ∧
      BlockRows s'.F s.r fn d L (fun v a => gf2Entry MF a v) ∧ BlockRows s'.G s.r gn d L (fun v a => gf2Entry MG a v) ∧
      ∀ l, Kills s'.r fn gn s'.F s'.G l → Kills s.r fn gn s.F s.G l := by
  refine ⟨{ s with F := mzdMulRows s.F s.r (crtCost d) d fn N.w MF, G := mzdMulRows s.G s.r (crtCost d) d gn N.w MG, r := s.r + crtCost d },
    by unfold crtAddBlock?; rw [eF, Option.bind_some, eG, Option.bind_some], by rw [hL], rfl, ?_, ?_, ?_⟩
  · intro k hk v hv
    rw [mulRows_entry, if_pos ⟨by omega, by omega, hv⟩]
    refine sum_congr rfl fun a ha => ?_
    rw [mem_range] at ha
    rw [hN _ _ ha, show s.r + k - s.r = k by omega]
  · intro k hk v hv
    rw [mulRows_entry, if_pos ⟨by omega, by omega, hv⟩]
    refine sum_congr rfl fun a ha => ?_
    rw [mem_range] at ha
    rw [hN _ _ ha, show s.r + k - s.r = k by omega]
  · intro l hl k hk
    rw [← hl k (by show k < s.r + crtCost d; omega)]
    refine sum_congr rfl fun v _ => sum_congr rfl fun w _ => ?_
    rw [mulRows_entry, mulRows_entry, if_neg (by omega), if_neg (by omega)]

theorem addBlock_poly {fn gn d : Nat} (h1 : 1 ≤ d) (h2 : d ≤ 16) {poly : Word} (hm : MinOK poly d) (s : CrtState) {Q : (ZMod 2)[X]} {ω : Nat}
    (hs : Restricts fn gn s Q ω) (hc : IsCoprime Q (toPoly poly)) :
    ∃ N s', smallMapMzd? d = some N ∧ crtAddBlock? fn gn N poly d s = some s' ∧ s'.r = s.r + crtCost d ∧ s'.it = s.it ∧
      Restricts fn gn s' (Q * toPoly poly) ω := by
  obtain ⟨N, L, eN, eL, hL, hN⟩ := smallMapMzd_spec h1 h2
  obtain ⟨MF, eF, hF⟩ := crtModredMat_spec hm fn
  obtain ⟨MG, eG, hG⟩ := crtModredMat_spec hm gn
  obtain ⟨s', e, hr, hit, bF, bG, hk⟩ := addBlock_spec hL hN eF eG s
  refine ⟨N, s', eN, e, by rw [hr, hL], hit, fun l hl => ?_⟩
  obtain ⟨i1, i2⟩ := hs l (hk l hl)
  refine ⟨hc.mul_dvd i1 ?_, i2⟩
  rw [hr] at hl
  refine block_dvd eL hm ?_ ?_ hl
  · intro k hk v hv
    rw [bF k hk v hv]
    refine sum_congr rfl fun a _ => ?_
    show _ * gf2Entry MF a v = _
    rw [hF, if_pos hv]
  · intro k hk v hv
    rw [bG k hk v hv]
    refine sum_congr rfl fun a _ => ?_
    show _ * gf2Entry MG a v = _
    rw [hG, if_pos hv]

theorem infinity_spec {fn gn : Nat} {p : Nat → Nat} (h16 : p 0 ≤ 16) (hf : p 0 ≤ fn) (hg : p 0 ≤ gn) :
    ∃ s, crtInfinity? fn gn p ⟨zeroW, zeroW, 0, fun _ => 0⟩ = some s ∧ s.r = crtCost (p 0) ∧ s.it = (fun _ => 0) ∧ Restricts fn gn s 1 (p 0) := by
  unfold crtInfinity?
  by_cases h0 : p 0 = 0
  · rw [if_neg (not_not.2 h0)]
    refine ⟨_, rfl, by rw [h0]; rfl, rfl, fun l _ => ⟨one_dvd _, fun t ht => by omega⟩⟩
  · rw [if_pos h0]
    obtain ⟨N, L, eN, eL, hL, hN⟩ := smallMapMzd_spec (by omega) h16
    obtain ⟨MF, eF, hF⟩ := crtModredMat_inf hf
    obtain ⟨MG, eG, hG⟩ := crtModredMat_inf hg
    obtain ⟨s', e, hr, hit, bF, bG, hk⟩ := addBlock_spec hL hN eF eG ⟨zeroW, zeroW, 0, fun _ => 0⟩
    refine ⟨s', by rw [eN]; exact e, by rw [hr, hL]; exact Nat.zero_add _, hit, fun l hl => ⟨one_dvd _, fun t ht => ?_⟩⟩
    rw [hr] at hl
    refine block_inf eL ?_ ?_ hl ht (by omega)
    · intro k hk v hv
      rw [bF k hk v hv]
      refine sum_congr rfl fun a ha => ?_
      rw [mem_range] at ha
      show _ * gf2 _ = _ * if v + a + 1 = fn then 1 else 0
      rw [hF]
      by_cases hc : v + a + 1 = fn
      · rw [if_pos hc, decide_eq_true ⟨ha, hc⟩]; rfl
      · rw [if_neg hc, decide_eq_false (by tauto)]; rfl
    · intro k hk v hv
      rw [bG k hk v hv]
      refine sum_congr rfl fun a ha => ?_
      rw [mem_range] at ha
      show _ * gf2 _ = _ * if v + a + 1 = gn then 1 else 0
      rw [hG]
      by_cases hc : v + a + 1 = gn
      · rw [if_pos hc, decide_eq_true ⟨ha, hc⟩]; rfl
      · rw [if_neg hc, decide_eq_false (by tauto)]; rfl

/-! ### the moduli -/

/-- the `j`-th irreducible polynomial of degree `e` in the table -/
noncomputable def tabPoly (e j : Nat) : (ZMod 2)[X] := toPoly (BitVec.ofNat 64 ((irredTable e).getD j 0))

theorem tab_mem {e j : Nat} (h : j < irredCount e) : (irredTable e).getD j 0 ∈ irredTable e := by
  rw [← (Props.C09_nodup_count e).2] at h
  rw [List.getD_eq_getElem _ _ h]
  exact List.getElem_mem h

theorem tab_irred {e j : Nat} (h : j < irredCount e) : (tabPoly e j).natDegree = e ∧ Irreducible (tabPoly e j) :=
  Props.C09_irreducible e _ (tab_mem h)

theorem irredTable_degree {e n : Nat} (h : n ∈ irredTable e) : e ≤ 16 := by
  by_contra hc
  unfold irredTable at h
  split at h <;> first | omega | (simp at h)

theorem tab_bound {e n : Nat} (h : n ∈ irredTable e) : n < 2 ^ 64 := by
  by_contra hc
  have h16 := irredTable_degree h
  obtain ⟨h1, h2⟩ := Props.C09_irreducible e n h
  have : ∀ d, d ≤ 16 → ∀ n ∈ irredTable d, n < 2 ^ 64 := by decide +kernel
  exact hc (this e h16 n h)

theorem unit_poly_eq_one {u : (ZMod 2)[X]} (h : IsUnit u) : u = 1 := by
  obtain ⟨c, hc, rfl⟩ := Polynomial.isUnit_iff.1 h
  have : c ≠ 0 := hc.ne_zero
  have key : ∀ c : ZMod 2, c ≠ 0 → c = 1 := by decide
  have h1 : c = 1 := key c this
  rw [h1, C_1]

theorem tab_coprime {e j e' j' : Nat} (h : j < irredCount e) (h' : j' < irredCount e') (hne : ¬ (e = e' ∧ j = j')) :
    IsCoprime (tabPoly e j) (tabPoly e' j') := by
  obtain ⟨d1, i1⟩ := tab_irred h
  obtain ⟨d2, i2⟩ := tab_irred h'
  rcases i1.isCoprime_or_dvd (tabPoly e' j') with hc | hd
  · exact hc
  · exfalso
    obtain ⟨u, hu⟩ := hd
    have hu1 : IsUnit u := (i2.isUnit_or_isUnit hu).resolve_left i1.not_isUnit
    rw [unit_poly_eq_one hu1, mul_one] at hu
    have he : e = e' := by rw [← d1, ← d2, hu]
    subst he
    refine hne ⟨rfl, ?_⟩
    have h1 := toPoly_injective hu
    have h2 := congrArg BitVec.toNat h1
    rw [BitVec.toNat_ofNat, BitVec.toNat_ofNat, Nat.mod_eq_of_lt (tab_bound (tab_mem h')), Nat.mod_eq_of_lt (tab_bound (tab_mem h))] at h2
    obtain ⟨hn, hl⟩ := Props.C09_nodup_count e
    rw [← hl] at h h'
    rw [List.getD_eq_getElem _ _ h, List.getD_eq_getElem _ _ h'] at h2
    exact ((List.Nodup.getElem_inj_iff hn).1 h2).symm

/-- the product of the moduli of degree at most `D` -/
noncomputable def degProd (p : Nat → Nat) (D : Nat) : (ZMod 2)[X] := ∏ e ∈ range D, ∏ j ∈ range (p (e + 1)), tabPoly (e + 1) j

/-- the scheme uses every irreducible polynomial at most once -/
def TabOk (p : Nat → Nat) : Prop := ∀ d, 1 ≤ d → d ≤ 16 → p d ≤ irredCount d

theorem degProd_coprime {p : Nat → Nat} (hp : TabOk p) {D j : Nat} (hD : D < 16) (hj : j < irredCount (D + 1)) :
    IsCoprime (degProd p D * ∏ i ∈ range j, tabPoly (D + 1) i) (tabPoly (D + 1) j) := by
  refine IsCoprime.mul_left (IsCoprime.prod_left fun e he => IsCoprime.prod_left fun i hi => ?_) (IsCoprime.prod_left fun i hi => ?_)
  · rw [mem_range] at he hi
    exact tab_coprime (lt_of_lt_of_le hi (hp _ (by omega) (by omega))) hj (by omega)
  · rw [mem_range] at hi
    exact tab_coprime (by omega) hj (by omega)

theorem degProd_natDegree {p : Nat → Nat} (hp : TabOk p) {D : Nat} (hD : D ≤ 16) :
    (degProd p D).natDegree = ∑ e ∈ range D, (e + 1) * p (e + 1) ∧ degProd p D ≠ 0 := by
  have hirr : ∀ e ∈ range D, ∀ j ∈ range (p (e + 1)), (tabPoly (e + 1) j).natDegree = e + 1 ∧ Irreducible (tabPoly (e + 1) j) := by
    intro e he j hj
    rw [mem_range] at he hj
    exact tab_irred (lt_of_lt_of_le hj (hp _ (by omega) (by omega)))
  have hne : ∀ e ∈ range D, ∏ j ∈ range (p (e + 1)), tabPoly (e + 1) j ≠ 0 := fun e he => prod_ne_zero_iff.2 fun j hj => (hirr e he j hj).2.ne_zero
  refine ⟨?_, prod_ne_zero_iff.2 hne⟩
  unfold degProd
  rw [natDegree_prod _ _ hne]
  refine sum_congr rfl fun e he => ?_
  rw [natDegree_prod _ _ fun j hj => (hirr e he j hj).2.ne_zero, sum_congr rfl fun j hj => (hirr e he j hj).1, sum_const, card_range, smul_eq_mul,
    mul_comm]

theorem crtModulus_spec {it : Nat → Nat} {d : Nat} (h1 : 1 ≤ d) (h : it d < irredCount d) :
    crtModulus? it d = some (BitVec.ofNat 64 ((irredTable d).getD (it d) 0), setP it d (it d + 1)) := by
  have : crtNext? it d = some (BitVec.ofNat 64 ((irredTable d).getD (it d) 0), setP it d (it d + 1)) := by
    unfold crtNext?
    rw [if_pos ⟨by omega, h⟩]
    have hl := h
    rw [← (Props.C09_nodup_count d).2] at hl
    rw [List.getElem?_eq_getElem hl, Option.map_some, List.getD_eq_getElem _ _ hl]
  unfold crtModulus?
  rw [this]

/-- the state after the moduli of degree at most `D` -/
structure MapsInv (fn gn : Nat) (p : Nat → Nat) (D : Nat) (s : CrtState) : Prop where
  r : s.r = crtCost (p 0) + ∑ e ∈ range D, crtCost (e + 1) * p (e + 1)
  it : ∀ e, D < e → s.it e = 0
  restr : Restricts fn gn s (degProd p D) (p 0)

theorem crtDegree_spec {fn gn : Nat} {p : Nat → Nat} (hp : TabOk p) {D : Nat} (hD : D < 16) {s : CrtState} (hs : MapsInv fn gn p D s) :
    ∃ s', crtDegree? fn gn p (D + 1) s = some s' ∧ MapsInv fn gn p (D + 1) s' := by
  unfold crtDegree?
  by_cases h0 : p (D + 1) = 0
  · rw [if_pos h0]
    refine ⟨s, rfl, by rw [sum_range_succ, h0, hs.r]; simp, fun e he => hs.it e (by omega), ?_⟩
    have : degProd p (D + 1) = degProd p D := by unfold degProd; rw [prod_range_succ, h0]; simp
    rw [this]; exact hs.restr
  · rw [if_neg h0]
    obtain ⟨N, L, eN, _⟩ := smallMapMzd_spec (d := D + 1) (by omega) (by omega)
    rw [eN, Option.bind_some]
    suffices h : ∀ n, n ≤ p (D + 1) → ∃ s', forNM (fun _ s => (crtModulus? s.it (D + 1)).bind fun (q, it) =>
        crtAddBlock? fn gn N q (D + 1) { s with it := it }) n s = some s' ∧ s'.r = s.r + crtCost (D + 1) * n ∧ s'.it (D + 1) = n ∧
        (∀ e, D + 1 < e → s'.it e = 0) ∧ Restricts fn gn s' (degProd p D * ∏ i ∈ range n, tabPoly (D + 1) i) (p 0) by
      obtain ⟨s', e, h1, h2, h3, h4⟩ := h _ le_rfl
      refine ⟨s', e, by rw [h1, hs.r, sum_range_succ, add_assoc], h3, ?_⟩
      have : degProd p (D + 1) = degProd p D * ∏ i ∈ range (p (D + 1)), tabPoly (D + 1) i := by unfold degProd; rw [prod_range_succ]
      rw [this]; exact h4
    intro n
    induction n with
    | zero =>
      intro _
      refine ⟨s, rfl, by simp, hs.it _ (by omega), fun e he => hs.it e (by omega), ?_⟩
      rw [prod_range_zero, mul_one]; exact hs.restr
    | succ n ih =>
      intro hn
      obtain ⟨s1, e1, h1, h2, h3, h4⟩ := ih (by omega)
      have hnc : n < irredCount (D + 1) := lt_of_lt_of_le hn (hp _ (by omega) (by omega))
      have hmod := crtModulus_spec (it := s1.it) (d := D + 1) (by omega) (by rw [h2]; exact hnc)
      rw [h2] at hmod
      obtain ⟨hd1, hd2⟩ := tab_irred hnc
      have hm : MinOK (BitVec.ofNat 64 ((irredTable (D + 1)).getD n 0)) (D + 1) := ⟨hd1, by omega, by omega⟩
      obtain ⟨N', s2, eN', e2, r2, it2, q2⟩ := addBlock_poly (fn := fn) (gn := gn) (by omega) (by omega) hm
        { s1 with it := setP s1.it (D + 1) (n + 1) } (Q := degProd p D * ∏ i ∈ range n, tabPoly (D + 1) i) (ω := p 0) h4
        (degProd_coprime hp hD hnc)
      rw [eN] at eN'
      cases eN'
      refine ⟨s2, ?_, ?_, ?_, ?_, ?_⟩
      · rw [forNM, e1, Option.bind_some, hmod, Option.bind_some]; exact e2
      · rw [r2]; show s1.r + _ = _; rw [h1, mul_add, mul_one, add_assoc]
      · rw [it2]; exact if_pos rfl
      · intro e he
        rw [it2]
        show (if e = D + 1 then _ else s1.it e) = 0
        rw [if_neg (by omega), h3 e he]
      · rw [prod_range_succ, ← mul_assoc]; exact q2

theorem blmCostCrt_eq (p : Nat → Nat) : blmCostCrt p = crtCost (p 0) + ∑ e ∈ range 16, crtCost (e + 1) * p (e + 1) := by
  unfold blmCostCrt
  generalize 16 = n
  induction n with
  | zero => rfl
  | succ n ih => rw [forN, ih, sum_range_succ, add_assoc]

/-- a scheme that `blm_init_crt` can use for these lengths -/
structure SchemeOk (fn gn : Nat) (p : Nat → Nat) : Prop where
  inf16 : p 0 ≤ 16
  infF : p 0 ≤ fn
  infG : p 0 ≤ gn
  tab : TabOk p

theorem blmMaps_spec {fn gn : Nat} {p : Nat → Nat} (hp : SchemeOk fn gn p) :
    ∃ s, blmMaps? fn gn p = some (blmCostCrt p, s) ∧ s.r = blmCostCrt p ∧ Restricts fn gn s (degProd p 16) (p 0) := by
  obtain ⟨s0, e0, r0, it0, q0⟩ := infinity_spec hp.inf16 hp.infF hp.infG
  have key : ∀ n, n ≤ 16 → ∃ s, forNM (fun d s => crtDegree? fn gn p (d + 1) s) n s0 = some s ∧ MapsInv fn gn p n s := by
    intro n
    induction n with
    | zero =>
      intro _
      refine ⟨s0, rfl, by rw [r0]; simp, fun e _ => by rw [it0], ?_⟩
      have : degProd p 0 = 1 := by unfold degProd; simp
      rw [this]; exact q0
    | succ n ih =>
      intro hn
      obtain ⟨s1, e1, h1⟩ := ih (by omega)
      obtain ⟨s2, e2, h2⟩ := crtDegree_spec hp.tab (by omega) h1
      exact ⟨s2, by rw [forNM, e1, Option.bind_some, e2], h2⟩
  obtain ⟨s, e, h⟩ := key 16 le_rfl
  refine ⟨s, ?_, by rw [h.r, blmCostCrt_eq], h.restr⟩
  unfold blmMaps?
  rw [if_neg (by have := hp.inf16; omega), e0, Option.bind_some, e]
  rfl

/-- the number of coefficients determined by a scheme -/
def schemeDegree (p : Nat → Nat) : Nat := p 0 + ∑ e ∈ range 16, (e + 1) * p (e + 1)

/-- **the key fact**: if a combination of the products of pairs vanishes, so does the combination of the powers of `x` -/
theorem blmMaps_kills {fn gn : Nat} {p : Nat → Nat} (hp : SchemeOk fn gn p) (hd : fn + gn ≤ schemeDegree p + 1)
    {s : CrtState} (hs : Restricts fn gn s (degProd p 16) (p 0)) {l : Nat → Nat → ZMod 2} (hl : Kills s.r fn gn s.F s.G l) :
    prodPoly fn gn l = 0 := by
  obtain ⟨h1, h2⟩ := hs l hl
  obtain ⟨hn, h0⟩ := degProd_natDegree hp.tab le_rfl
  by_contra hP
  have hle := natDegree_le_of_dvd h1 hP
  have hc : (prodPoly fn gn l).coeff (prodPoly fn gn l).natDegree ≠ 0 := by
    show leadingCoeff _ ≠ 0
    exact leadingCoeff_ne_zero.2 hP
  have hlt : (prodPoly fn gn l).natDegree + 2 ≤ fn + gn := by
    by_contra hcon
    apply hc
    rw [prodPoly_coeff]
    refine sum_eq_zero fun v hv => sum_eq_zero fun w hw => ?_
    rw [mem_range] at hv hw
    rw [if_neg (by omega), mul_zero]
  unfold schemeDegree at hd
  have := h2 (fn + gn - 2 - (prodPoly fn gn l).natDegree) (by omega)
  rw [show fn + gn - 2 - (fn + gn - 2 - (prodPoly fn gn l).natDegree) = (prodPoly fn gn l).natDegree by omega] at this
  exact hc this

end M4rie
