import Verif.Spec.Poly
import Mathlib.Algebra.CharP.Two
import Mathlib.Algebra.Field.ZMod
import Mathlib.FieldTheory.Finite.Basic
import Mathlib.RingTheory.AdjoinRoot
import Mathlib.Algebra.Polynomial.FieldDivision
import Mathlib.Tactic.LinearCombination

/-!
Ben-Or irreducibility test on natural numbers encoding GF(2)[X] polynomials, evaluated by the
kernel, with a soundness proof.  (Proof infrastructure for C09, not a model of repository code.)
-/

namespace M4rie.BenOr
open Polynomial

/-- polynomial encoded by the bits of a natural number -/
noncomputable def nPoly (n : Nat) : (ZMod 2)[X] :=
  ∑ i ∈ Finset.range n, if n.testBit i then X ^ i else 0

theorem nPoly_coeff (n i : Nat) : (nPoly n).coeff i = if n.testBit i then 1 else 0 := by
  unfold nPoly
  rw [finsetSum_coeff]
  have h : ∀ j ∈ Finset.range n, (if n.testBit j = true then (X : (ZMod 2)[X]) ^ j else 0).coeff i
      = if j = i then (if n.testBit i then 1 else 0) else 0 := by
    intro j _
    by_cases hj : n.testBit j
    · by_cases hji : j = i
      · subst hji; simp [hj]
      · simp [hj, coeff_X_pow, hji, Ne.symm hji]
    · by_cases hji : j = i
      · subst hji; simp [hj]
      · simp [hj, hji]
  rw [Finset.sum_congr rfl h, Finset.sum_ite_eq']
  by_cases hi : i < n
  · simp [hi]
  · have : n.testBit i = false :=
      Nat.testBit_lt_two_pow (lt_of_lt_of_le (Nat.lt_two_pow_self) (Nat.pow_le_pow_right (by norm_num) (by omega)))
    simp [this]

theorem nPoly_zero : nPoly 0 = 0 := by ext i; simp [nPoly_coeff]
theorem nPoly_one : nPoly 1 = 1 := by
  ext i; rw [nPoly_coeff, coeff_one]
  by_cases h : i = 0
  · subst h; simp
  · have h1 := Nat.testBit_two_pow (n := 0) (m := i)
    rw [pow_zero] at h1
    rw [h1]; simp [h, Ne.symm h]
theorem nPoly_two : nPoly 2 = X := by
  ext i; rw [nPoly_coeff, coeff_X]
  have : Nat.testBit 2 i = decide (1 = i) := by
    have := Nat.testBit_two_pow (n := 1) (m := i); simpa using this
  rw [this]; by_cases h : 1 = i <;> simp [h]

theorem nPoly_xor (a b : Nat) : nPoly (Nat.xor a b) = nPoly a + nPoly b := by
  ext i
  rw [coeff_add, nPoly_coeff, nPoly_coeff, nPoly_coeff]
  have : (Nat.xor a b).testBit i = (a.testBit i ^^ b.testBit i) := Nat.testBit_xor a b i
  rw [this]
  cases a.testBit i <;> cases b.testBit i <;> simp
  decide

theorem nPoly_shiftLeft (b k : Nat) : nPoly (Nat.shiftLeft b k) = nPoly b * X ^ k := by
  ext i
  rw [coeff_mul_X_pow', nPoly_coeff, nPoly_coeff]
  have : (Nat.shiftLeft b k).testBit i = (decide (i ≥ k) && b.testBit (i - k)) :=
    Nat.testBit_shiftLeft b
  rw [this]
  by_cases h : k ≤ i <;> simp [h]

theorem nPoly_double (b : Nat) : nPoly (Nat.mul 2 b) = nPoly b * X := by
  have : Nat.mul 2 b = Nat.shiftLeft b 1 := by
    show 2 * b = b <<< 1
    rw [Nat.shiftLeft_eq]; omega
  rw [this, nPoly_shiftLeft, pow_one]

/-- one Horner step -/
def mmStep (f d b : Nat) (bit r : Nat) : Nat :=
  Nat.xor (Nat.xor (Nat.mul 2 r) (Nat.mul f (Nat.land (Nat.shiftRight (Nat.mul 2 r) d) 1)))
    (Nat.mul b bit)

/-- `a*b mod f` by Horner over the bits of `a` -/
def mulMod (f d a b : Nat) : Nat → Nat → Nat
  | 0, r => r
  | n+1, r => mulMod f d a b n (mmStep f d b (Nat.land (Nat.shiftRight a n) 1) r)

/-- subtractive Euclid -/
def gcdIter : Nat → Nat → Nat → Nat
  | 0, _, _ => 0
  | n+1, a, b =>
    bif Nat.beq a 0 then b else
    bif Nat.ble (Nat.log2 b) (Nat.log2 a) then
      gcdIter n (Nat.xor a (Nat.shiftLeft b (Nat.sub (Nat.log2 a) (Nat.log2 b)))) b
    else gcdIter n b a

/-- `∏ (x^(2^i) - x)` accumulated modulo `f` -/
def benOr (f d : Nat) : Nat → Nat → Nat → Nat
  | 0, _, p => p
  | k+1, x, p =>
    bif Nat.beq (Nat.shiftRight x d) 0 && Nat.beq (Nat.shiftRight (mulMod f d x x d 0) d) 0 then
     benOr f d k (mulMod f d x x d 0) (mulMod f d (Nat.xor (mulMod f d x x d 0) 2) p d 0)
    else 0

/-- the test -/
def check (d f : Nat) : Bool :=
  Nat.ble 2 d && (Nat.beq (Nat.log2 f) d && Nat.beq (gcdIter (4*d) f (benOr f d (d/2) 2 1)) 1)

theorem land_one (a n : Nat) : Nat.land (Nat.shiftRight a n) 1 = if a.testBit n then 1 else 0 := by
  show (a >>> n) &&& 1 = _
  rw [Nat.and_one_is_mod]
  simp only [Nat.testBit, Nat.one_and_eq_mod_two, bne_iff_ne, ne_eq]
  split <;> omega

theorem mmStep_cong (f d b bit r : Nat) (hb : bit = 0 ∨ bit = 1) :
    nPoly f ∣ nPoly (mmStep f d b bit r) - (nPoly r * X + (bit : (ZMod 2)[X]) * nPoly b) := by
  unfold mmStep
  rw [nPoly_xor, nPoly_xor, nPoly_double, land_one]
  have hb' : nPoly (Nat.mul b bit) = (bit : (ZMod 2)[X]) * nPoly b := by
    rcases hb with rfl | rfl
    · show nPoly (b * 0) = _; simp [nPoly_zero]
    · show nPoly (b * 1) = _; simp
  rw [hb']
  by_cases h : (Nat.mul 2 r).testBit d
  · rw [if_pos h]
    refine ⟨1, ?_⟩
    show nPoly r * X + nPoly (f * 1) + _ - _ = _
    rw [Nat.mul_one]; ring
  · rw [if_neg h]
    refine ⟨0, ?_⟩
    show nPoly r * X + nPoly (f * 0) + _ - _ = _
    rw [Nat.mul_zero, nPoly_zero]; ring

/-- low part -/
noncomputable def low (a n : Nat) : (ZMod 2)[X] := ∑ i ∈ Finset.range n, if a.testBit i then X ^ i else 0

theorem mulMod_cong (f d a b : Nat) : ∀ n r,
    nPoly f ∣ nPoly (mulMod f d a b n r) - (nPoly r * X ^ n + low a n * nPoly b) := by
  intro n
  induction n with
  | zero => intro r; simp [mulMod, low]
  | succ n ih =>
    intro r
    rw [mulMod]
    have h1 := ih (mmStep f d b (Nat.land (Nat.shiftRight a n) 1) r)
    have h2 := mmStep_cong f d b (Nat.land (Nat.shiftRight a n) 1) r (by
      rw [land_one]; split <;> simp)
    have h3 : low a (n+1) = low a n + (if a.testBit n then X ^ n else 0) := by
      unfold low; rw [Finset.sum_range_succ]
    have h4 : (if a.testBit n then (X : (ZMod 2)[X]) ^ n else 0) =
        ((Nat.land (Nat.shiftRight a n) 1 : ℕ) : (ZMod 2)[X]) * X ^ n := by
      rw [land_one]; split <;> simp
    rw [h3, h4]
    have := dvd_add h1 (Dvd.dvd.mul_right h2 (X ^ n))
    convert this using 1
    ring

theorem low_eq (a d : Nat) (h : Nat.shiftRight a d = 0) : low a d = nPoly a := by
  have hlt : a < 2 ^ d := by
    have h1 : a / 2 ^ d = 0 := by rw [← Nat.shiftRight_eq_div_pow]; exact h
    exact (Nat.div_eq_zero_iff_lt (by positivity)).1 h1
  ext i
  rw [nPoly_coeff]
  unfold low
  rw [finsetSum_coeff]
  have h : ∀ j ∈ Finset.range d, (if a.testBit j = true then (X : (ZMod 2)[X]) ^ j else 0).coeff i
      = if j = i then (if a.testBit i then 1 else 0) else 0 := by
    intro j _
    by_cases hj : a.testBit j
    · by_cases hji : j = i
      · subst hji; simp [hj]
      · simp [hj, coeff_X_pow, hji, Ne.symm hji]
    · by_cases hji : j = i
      · subst hji; simp [hj]
      · simp [hj, hji]
  rw [Finset.sum_congr rfl h, Finset.sum_ite_eq']
  by_cases hi : i < d
  · simp [hi]
  · have : a.testBit i = false := Nat.testBit_lt_two_pow
      (lt_of_lt_of_le hlt (Nat.pow_le_pow_right (by norm_num) (by omega)))
    simp [hi, this]

theorem mulMod_spec (f d a b : Nat) (h : Nat.shiftRight a d = 0) :
    nPoly f ∣ nPoly (mulMod f d a b d 0) - nPoly a * nPoly b := by
  have := mulMod_cong f d a b d 0
  rw [low_eq a d h, nPoly_zero] at this
  simpa using this

theorem gcdIter_dvd (g : (ZMod 2)[X]) : ∀ n a b, g ∣ nPoly a → g ∣ nPoly b → g ∣ nPoly (gcdIter n a b) := by
  intro n
  induction n with
  | zero => intro a b _ _; simp [gcdIter, nPoly_zero]
  | succ n ih =>
    intro a b ha hb
    rw [gcdIter]
    cases Nat.beq a 0
    · simp only [cond_false]
      cases Nat.ble (Nat.log2 b) (Nat.log2 a)
      · simp only [cond_false]; exact ih _ _ hb ha
      · simp only [cond_true]
        apply ih _ _ _ hb
        rw [nPoly_xor, nPoly_shiftLeft]
        exact dvd_add ha (Dvd.dvd.mul_right hb _)
    · simpa using hb

/-- if `g ∣ f`, `x ≡ X^(2^j)`, and `g` divides the accumulated product or one of the
upcoming factors, then `g` divides the result. -/
theorem benOr_dvd (f d : Nat) (hd : 2 ≤ d) (g : (ZMod 2)[X]) (hg : g ∣ nPoly f) : ∀ k j x p,
    nPoly f ∣ nPoly x - X ^ (2 ^ j) →
    (g ∣ nPoly p ∨ ∃ i, 1 ≤ i ∧ i ≤ k ∧ g ∣ X ^ (2 ^ (j + i)) - X) →
    g ∣ nPoly (benOr f d k x p) := by
  intro k
  induction k with
  | zero =>
    intro j x p _ h
    rcases h with h | ⟨i, h1, h2, _⟩
    · exact h
    · omega
  | succ k ih =>
    intro j x p hx h
    rw [benOr]
    cases hc : (Nat.beq (Nat.shiftRight x d) 0 && Nat.beq (Nat.shiftRight (mulMod f d x x d 0) d) 0)
    · simp [nPoly_zero]
    · simp only [cond_true]
      rw [Bool.and_eq_true] at hc
      have hx0 := Nat.eq_of_beq_eq_true hc.1
      have hs0 := Nat.eq_of_beq_eq_true hc.2
      have hsq : nPoly f ∣ nPoly (mulMod f d x x d 0) - X ^ (2 ^ (j+1)) := by
        have h1 := mulMod_spec f d x x hx0
        have h2 : nPoly f ∣ nPoly x * nPoly x - X ^ (2 ^ (j+1)) := by
          have : nPoly x * nPoly x - X ^ (2 ^ (j+1)) = (nPoly x - X ^ (2 ^ j)) * (nPoly x + X ^ (2^j)) := by
            ring
          rw [this]; exact Dvd.dvd.mul_right hx _
        have := dvd_add h1 h2
        convert this using 1; ring
      apply ih (j+1) _ _ hsq
      -- new product
      have hxor0 : Nat.shiftRight (Nat.xor (mulMod f d x x d 0) 2) d = Nat.shiftRight 2 d := by
        show ((mulMod f d x x d 0) ^^^ 2) >>> d = 2 >>> d
        rw [Nat.shiftRight_xor_distrib]
        have : (mulMod f d x x d 0) >>> d = 0 := hs0
        rw [this, Nat.zero_xor]
      have h20 : Nat.shiftRight 2 d = 0 := by
        show 2 >>> d = 0
        rw [Nat.shiftRight_eq_div_pow]
        apply Nat.div_eq_of_lt
        calc 2 < 2 ^ 2 := by norm_num
          _ ≤ 2 ^ d := Nat.pow_le_pow_right (by norm_num) hd
      have hprod : (g ∣ nPoly p ∨ g ∣ X ^ (2 ^ (j+1)) - X) →
          g ∣ nPoly (mulMod f d (Nat.xor (mulMod f d x x d 0) 2) p d 0) := by
        intro h
        have h1 := dvd_trans hg (mulMod_spec f d (Nat.xor (mulMod f d x x d 0) 2) p (by rw [hxor0, h20]))
        rw [nPoly_xor, nPoly_two] at h1
        have h3 : g ∣ (nPoly (mulMod f d x x d 0) + X) * nPoly p := by
          rcases h with h | h
          · exact Dvd.dvd.mul_left h _
          · apply Dvd.dvd.mul_right
            have h4 := dvd_add (dvd_trans hg hsq) h
            have h5 : nPoly (mulMod f d x x d 0) + X = nPoly (mulMod f d x x d 0) - X ^ 2 ^ (j + 1) + (X ^ 2 ^ (j + 1) - X) + (X + X) := by ring
            rw [h5, CharTwo.add_self_eq_zero, add_zero]
            exact h4
        have := dvd_add h1 h3
        simpa using this
      rcases h with h | ⟨i, hi1, hi2, h⟩
      · left; exact hprod (Or.inl h)
      · by_cases hi : i = 1
        · subst hi; left; exact hprod (Or.inr h)
        · right
          refine ⟨i - 1, by omega, by omega, ?_⟩
          have : j + 1 + (i - 1) = j + i := by omega
          rw [this]; exact h

/-- An irreducible polynomial of degree `k` over GF(2) divides `X^(2^k) - X`. -/
theorem irreducible_dvd (g : (ZMod 2)[X]) (hg : Irreducible g) : g ∣ X ^ (2 ^ g.natDegree) - X := by
  have : Fact (Irreducible g) := ⟨hg⟩
  let pb := AdjoinRoot.powerBasis hg.ne_zero
  have hfin : Module.Finite (ZMod 2) (AdjoinRoot g) := pb.finite
  have : Finite (AdjoinRoot g) := Module.finite_of_finite (ZMod 2)
  have : Fintype (AdjoinRoot g) := Fintype.ofFinite _
  have hrank : Module.finrank (ZMod 2) (AdjoinRoot g) = g.natDegree := by
    rw [pb.finrank, AdjoinRoot.powerBasis_dim]
  have hcard : Fintype.card (AdjoinRoot g) = 2 ^ g.natDegree := by
    rw [Module.card_eq_pow_finrank (K := ZMod 2) (V := AdjoinRoot g), hrank, ZMod.card]
  have h := FiniteField.pow_card (AdjoinRoot.root g)
  rw [hcard] at h
  rw [← AdjoinRoot.mk_eq_zero, map_sub, map_pow, AdjoinRoot.mk_X, h, sub_self]

theorem nPoly_natDegree (f : Nat) (hf : f ≠ 0) : (nPoly f).natDegree = Nat.log2 f := by
  apply natDegree_eq_of_le_of_coeff_ne_zero
  · rw [natDegree_le_iff_coeff_eq_zero]
    intro m hm
    rw [nPoly_coeff]
    have : f.testBit m = false := Nat.testBit_lt_two_pow
      (lt_of_lt_of_le Nat.lt_log2_self (Nat.pow_le_pow_right (by norm_num) (by omega)))
    simp [this]
  · rw [nPoly_coeff, Nat.testBit_log2 hf]; simp

theorem check_sound (d f : Nat) (h : check d f = true) :
    (nPoly f).natDegree = d ∧ Irreducible (nPoly f) := by
  unfold check at h
  rw [Bool.and_eq_true, Bool.and_eq_true] at h
  have hd : 2 ≤ d := Nat.le_of_ble_eq_true h.1
  have hlog := Nat.eq_of_beq_eq_true h.2.1
  have hgcd := Nat.eq_of_beq_eq_true h.2.2
  have hf0 : f ≠ 0 := by rintro rfl; simp at hlog; omega
  have hdeg : (nPoly f).natDegree = d := by rw [nPoly_natDegree f hf0, hlog]
  refine ⟨hdeg, ?_⟩
  have hne : nPoly f ≠ 0 := by intro h0; rw [h0] at hdeg; simp at hdeg; omega
  have hmonic : (nPoly f).Monic := by
    have : (nPoly f).leadingCoeff ≠ 0 := leadingCoeff_ne_zero.2 hne
    unfold Monic
    revert this
    generalize (nPoly f).leadingCoeff = c
    revert c; decide
  have hne1 : nPoly f ≠ 1 := by intro h0; rw [h0] at hdeg; simp at hdeg; omega
  rw [hmonic.irreducible_iff_lt_natDegree_lt hne1]
  intro q hq hmem hqd
  rw [Finset.mem_Ioc] at hmem
  have hqu : ¬ IsUnit q := by
    intro hu
    have := natDegree_eq_zero_of_isUnit hu
    omega
  obtain ⟨g, hg, hgq⟩ := WfDvdMonoid.exists_irreducible_factor hqu hq.ne_zero
  have hgdeg : g.natDegree ≤ q.natDegree := natDegree_le_of_dvd hgq hq.ne_zero
  have hgpos : 0 < g.natDegree := hg.natDegree_pos
  have h1 := irreducible_dvd g hg
  have h2 := benOr_dvd f d hd g (dvd_trans hgq hqd) (d/2) 0 2 1 (by rw [nPoly_two]; simp)
    (Or.inr ⟨g.natDegree, by omega, by omega, by simpa using h1⟩)
  have h3 := gcdIter_dvd g (4*d) f _ (dvd_trans hgq hqd) h2
  rw [hgcd, nPoly_one] at h3
  exact hg.not_isUnit (isUnit_of_dvd_one h3)

end M4rie.BenOr
