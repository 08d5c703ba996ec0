import Verif.Model.SliceOps
import Verif.Proofs.Conv
import Mathlib.Algebra.Ring.BooleanRing
import Mathlib.Algebra.BigOperators.Ring.Finset

/-!
# The multiplication formulas of karatsuba.c

Everything here is about bits; `Bool` with xor and and is a commutative ring.
-/

namespace M4rie
open Finset

theorem xorRange_sum (g : Nat → Bool) (n : Nat) : xorRange g n = ∑ l ∈ range n, g l := by
  induction n with
  | zero => rfl
  | succ n ih => rw [sum_range_succ, ← ih]; rfl

/-- the set of indices occurring an odd number of times in a list, as a bit mask -/
def lmask : List Nat → Nat
  | [] => 0
  | t :: l => (1 <<< t) ^^^ lmask l

/-- `∑ g t` over the bits `t` of a mask -/
def phi (D : Nat) (g : Nat → Bool) (m : Nat) : Bool := ∑ t ∈ range D, m.testBit t * g t

theorem phi_zero (D : Nat) (g : Nat → Bool) : phi D g 0 = 0 := by
  unfold phi
  apply sum_eq_zero
  intro t _
  rw [Nat.zero_testBit]; rfl

theorem phi_xor (D : Nat) (g : Nat → Bool) (a b : Nat) : phi D g (a ^^^ b) = phi D g a + phi D g b := by
  unfold phi
  rw [← sum_add_distrib]
  apply sum_congr rfl
  intro t _
  rw [Nat.testBit_xor, ← add_mul]
  rfl

theorem phi_one {D : Nat} (g : Nat → Bool) {t : Nat} (h : t < D) : phi D g (1 <<< t) = g t := by
  unfold phi
  rw [sum_eq_single t]
  · rw [Nat.one_shiftLeft, Nat.testBit_two_pow_self]; exact one_mul (g t)
  · intro s _ hs
    rw [Nat.one_shiftLeft, Nat.testBit_two_pow_of_ne (Ne.symm hs)]; exact zero_mul (g s)
  · intro hh; exact absurd (mem_range.2 h) hh

theorem list_sum_phi {D : Nat} (g : Nat → Bool) : ∀ (l : List Nat), (∀ t ∈ l, t < D) → (l.map g).sum = phi D g (lmask l) := by
  intro l
  induction l with
  | nil => intro _; rw [lmask, phi_zero]; rfl
  | cons t l ih =>
    intro h
    rw [List.map_cons, List.sum_cons, lmask, phi_xor, phi_one g (h t (by simp)), ih fun s hs => h s (by simp [hs])]

/-- the indices of a term are in range -/
def KaraTerm.ok (d : Nat) (T : KaraTerm) : Bool :=
  !T.as.isEmpty && !T.bs.isEmpty && T.as.all (· < d) && T.bs.all (· < d) && T.targets.all (· < 2 * d - 1)

/-- the targets of the products `a_a * b_b` -/
def karaMask (a b : Nat) : List KaraTerm → Nat
  | [] => 0
  | T :: l => (if (lmask T.as).testBit a && (lmask T.bs).testBit b then lmask T.targets else 0) ^^^ karaMask a b l

/-- every product `a_a * b_b` is added exactly to the target `a+b` (after cancellation) -/
def karaCheck (d : Nat) (terms : List KaraTerm) : Bool :=
  terms.all (KaraTerm.ok d) && (List.range d).all fun a => (List.range d).all fun b => karaMask a b terms == 1 <<< (a + b)

theorem karaTerm_sum {d D : Nat} (g : Nat → Bool) (A B : Nat → Nat → Bool) (K : Nat) (T : KaraTerm)
    (ha : ∀ a ∈ T.as, a < d) (hb : ∀ b ∈ T.bs, b < d) (ht : ∀ t ∈ T.targets, t < D) :
    (T.targets.map g).sum * ∑ l ∈ range K, (T.as.map fun a => A a l).sum * (T.bs.map fun b => B b l).sum =
      ∑ a ∈ range d, ∑ b ∈ range d,
        phi D g (if (lmask T.as).testBit a && (lmask T.bs).testBit b then lmask T.targets else 0) * ∑ l ∈ range K, A a l * B b l := by
  rw [list_sum_phi g _ ht]
  have h1 : ∀ l, (T.as.map fun a => A a l).sum * (T.bs.map fun b => B b l).sum =
      ∑ a ∈ range d, ∑ b ∈ range d, ((lmask T.as).testBit a * (lmask T.bs).testBit b) * (A a l * B b l) := by
    intro l
    rw [list_sum_phi (fun a => A a l) _ ha, list_sum_phi (fun b => B b l) _ hb]
    unfold phi
    rw [sum_mul_sum]
    apply sum_congr rfl; intro a _
    apply sum_congr rfl; intro b _
    ring
  simp only [h1]
  rw [sum_comm, mul_sum]
  apply sum_congr rfl; intro a _
  rw [sum_comm, mul_sum]
  apply sum_congr rfl; intro b _
  rw [← mul_sum, ← mul_assoc]
  congr 1
  cases h : (lmask T.as).testBit a <;> cases h' : (lmask T.bs).testBit b <;> simp only [Bool.and_true, Bool.and_false, Bool.false_eq_true, if_true, if_false,
    phi_zero]
  · exact mul_zero (phi D g (lmask T.targets))
  · exact mul_zero (phi D g (lmask T.targets))
  · exact mul_zero (phi D g (lmask T.targets))
  · exact mul_one (phi D g (lmask T.targets))

theorem karaTerms_sum {d D : Nat} (g : Nat → Bool) (A B : Nat → Nat → Bool) (K : Nat) : ∀ terms : List KaraTerm,
    (∀ T ∈ terms, (∀ a ∈ T.as, a < d) ∧ (∀ b ∈ T.bs, b < d) ∧ (∀ t ∈ T.targets, t < D)) →
    (terms.map fun T => (T.targets.map g).sum * ∑ l ∈ range K, (T.as.map fun a => A a l).sum * (T.bs.map fun b => B b l).sum).sum =
      ∑ a ∈ range d, ∑ b ∈ range d, phi D g (karaMask a b terms) * ∑ l ∈ range K, A a l * B b l := by
  intro terms
  induction terms with
  | nil =>
    intro _
    symm
    apply sum_eq_zero; intro a _
    apply sum_eq_zero; intro b _
    rw [karaMask, phi_zero, zero_mul]
  | cons T terms ih =>
    intro h
    obtain ⟨h1, h2, h3⟩ := h T (by simp)
    rw [List.map_cons, List.sum_cons, karaTerm_sum g A B K T h1 h2 h3, ih fun S hS => h S (by simp [hS]), ← sum_add_distrib]
    apply sum_congr rfl; intro a _
    rw [← sum_add_distrib]
    apply sum_congr rfl; intro b _
    rw [karaMask, phi_xor, add_mul]

theorem karaCheck_ok {d : Nat} {terms : List KaraTerm} (h : karaCheck d terms = true) {T : KaraTerm} (hT : T ∈ terms) :
    T.as ≠ [] ∧ T.bs ≠ [] ∧ (∀ a ∈ T.as, a < d) ∧ (∀ b ∈ T.bs, b < d) ∧ (∀ t ∈ T.targets, t < 2 * d - 1) := by
  unfold karaCheck at h
  rw [Bool.and_eq_true] at h
  have := List.all_eq_true.1 h.1 T hT
  unfold KaraTerm.ok at this
  simp only [Bool.and_eq_true, Bool.not_eq_true', List.isEmpty_eq_false_iff, List.all_eq_true, decide_eq_true_eq] at this
  obtain ⟨⟨⟨⟨h1, h2⟩, h3⟩, h4⟩, h5⟩ := this
  exact ⟨h1, h2, h3, h4, h5⟩

/-- A checked formula multiplies polynomials (with arbitrary images `g t` of `x^t`). -/
theorem kara_sum {d : Nat} {terms : List KaraTerm} (h : karaCheck d terms = true) (g : Nat → Bool) (A B : Nat → Nat → Bool)
    (K : Nat) :
    (terms.map fun T => (T.targets.map g).sum * ∑ l ∈ range K, (T.as.map fun a => A a l).sum * (T.bs.map fun b => B b l).sum).sum =
      ∑ a ∈ range d, ∑ b ∈ range d, g (a + b) * ∑ l ∈ range K, A a l * B b l := by
  rw [karaTerms_sum (d := d) (D := 2 * d - 1) g A B K terms fun T hT => (karaCheck_ok h hT).2.2]
  apply sum_congr rfl; intro a ha
  apply sum_congr rfl; intro b hb
  rw [mem_range] at ha hb
  unfold karaCheck at h
  simp only [Bool.and_eq_true, List.all_eq_true, List.mem_range, beq_iff_eq] at h
  rw [h.2 a ha b hb, phi_one g (by omega)]

theorem karaCheck2 : karaCheck 2 (⟨[0, 1], [0, 1], [1]⟩ :: karaTerms2) = true := by decide +kernel
theorem karaCheck3 : karaCheck 3 karaTerms3 = true := by decide +kernel
theorem karaCheck4 : karaCheck 4 karaTerms4 = true := by decide +kernel
theorem karaCheck5 : karaCheck 5 karaTerms5 = true := by decide +kernel
theorem karaCheck6 : karaCheck 6 karaTerms6 = true := by decide +kernel
theorem karaCheck7 : karaCheck 7 karaTerms7 = true := by decide +kernel
theorem karaCheck8 : karaCheck 8 karaTerms8 = true := by decide +kernel
theorem karaCheck9 : karaCheck 9 karaTerms9 = true := by decide +kernel
theorem karaCheck10 : karaCheck 10 karaTerms10 = true := by decide +kernel
theorem karaCheck11 : karaCheck 11 karaTerms11 = true := by decide +kernel
theorem karaCheck12 : karaCheck 12 karaTerms12 = true := by decide +kernel
theorem karaCheck13 : karaCheck 13 karaTerms13 = true := by decide +kernel
theorem karaCheck14 : karaCheck 14 karaTerms14 = true := by decide +kernel
theorem karaCheck15 : karaCheck 15 karaTerms15 = true := by decide +kernel
theorem karaCheck16 : karaCheck 16 karaTerms16 = true := by decide +kernel

/-! ### the statements -/

/-- the bits of the image of `x^t`: the `t`-th unit vector if there is no field or `t < degree`, otherwise the table entry
`pow_gen[t]` -/
def gBits (ff : Option Gf2e) (t k : Nat) : Bool :=
  match ff with
  | none => decide (k = t)
  | some ff => if t < ff.degree then decide (k = t) else decide (k < ff.degree) && (ff.powGen t).getLsbD k

/-- `t` is an index at which `_mzd_ptr_add_modred` may be called -/
def TargetOk (ff : Option Gf2e) (t : Nat) : Prop := ∀ f, ff = some f → t < 2 * f.degree - 1 ∧ f.degree ≤ 64

theorem bitAt_mzdAdd (nr nc : Nat) (C A B : Nat → Nat → Word) (i p : Nat) :
    bitAt (mzdAdd nr nc C A B) i p = if i < nr ∧ p < nc then (bitAt A i p).xor (bitAt B i p) else bitAt C i p := by
  unfold mzdAdd; rw [bitAt_ofBits]

theorem bitAt_addTo (nr nc : Nat) (X A : Nat → Nat → Word) (i p : Nat) :
    bitAt (mzdAdd nr nc X X A) i p = (bitAt X i p).xor (decide (i < nr ∧ p < nc) && bitAt A i p) := by
  rw [bitAt_mzdAdd]
  by_cases h : i < nr ∧ p < nc
  · rw [if_pos h, decide_eq_true h, Bool.true_and]
  · rw [if_neg h, decide_eq_false h, Bool.false_and, Bool.xor_false]

theorem mzdIsZero_bit {nr nc : Nat} {A : Nat → Nat → Word} (h : mzdIsZero nr nc A = true) {i p : Nat} (hi : i < nr ∧ p < nc) :
    bitAt A i p = false := by
  unfold mzdIsZero at h
  simp only [List.all_eq_true, List.mem_range, Bool.not_eq_true'] at h
  exact h i hi.1 p hi.2

theorem setSlice_bits (nr nc : Nat) (A : Nat → Nat → Word) (X : Nat → Nat → Nat → Word) (t k i p : Nat) :
    bitAt (setSlice X t (mzdAdd nr nc (X t) (X t) A) k) i p =
      (bitAt (X k) i p).xor ((decide (i < nr ∧ p < nc) && bitAt A i p) && decide (k = t)) := by
  unfold setSlice
  by_cases h : k = t
  · subst h
    rw [if_pos rfl, bitAt_addTo, decide_eq_true rfl, Bool.and_true]
  · rw [if_neg h, decide_eq_false h, Bool.and_false, Bool.xor_false]

theorem ptrAddModred_bits {ff : Option Gf2e} (nr nc : Nat) (A : Nat → Nat → Word) (X : Nat → Nat → Nat → Word) {t : Nat}
    (ht : TargetOk ff t) : ∃ X', ptrAddModred ff nr nc A X t = some X' ∧
      ∀ k i p, bitAt (X' k) i p = (bitAt (X k) i p).xor ((decide (i < nr ∧ p < nc) && bitAt A i p) && gBits ff t k) := by
  by_cases hz : mzdIsZero nr nc A = true
  · refine ⟨X, by unfold ptrAddModred; rw [if_pos hz], fun k i p => ?_⟩
    by_cases h : i < nr ∧ p < nc
    · rw [mzdIsZero_bit hz h, Bool.and_false, Bool.false_and, Bool.xor_false]
    · rw [decide_eq_false h, Bool.false_and, Bool.false_and, Bool.xor_false]
  · cases ff with
    | none => exact ⟨_, by unfold ptrAddModred; rw [if_neg hz], fun k i p => setSlice_bits nr nc A X t k i p⟩
    | some ff =>
      obtain ⟨h1, h2⟩ := ht ff rfl
      by_cases hd : t < ff.degree
      · refine ⟨_, by unfold ptrAddModred; rw [if_neg hz]; simp only; rw [if_pos hd], fun k i p => ?_⟩
        rw [setSlice_bits]
        show _ = (bitAt (X k) i p).xor ((decide (i < nr ∧ p < nc) && bitAt A i p) && (if t < ff.degree then decide (k = t) else _))
        rw [if_pos hd]
      · refine ⟨_, by unfold ptrAddModred; rw [if_neg hz]; simp only; rw [if_neg hd, if_neg (not_not.2 h1)], fun k i p => ?_⟩
        have key : ∀ n, n ≤ 64 → bitAt (forN (fun i X => if ff.powGen t &&& twoPow i ≠ 0#64 then
            setSlice X i (mzdAdd nr nc (X i) (X i) A) else X) n X k) i p =
            (bitAt (X k) i p).xor ((decide (i < nr ∧ p < nc) && bitAt A i p) && (decide (k < n) && (ff.powGen t).getLsbD k)) := by
          intro n
          induction n with
          | zero => intro _; simp [forN]
          | succ n ih =>
            intro hn
            rw [forN]
            by_cases hb : (ff.powGen t).getLsbD n = true
            · rw [if_pos ((and_twoPow _ n (by omega)).2 hb), setSlice_bits, ih (by omega), Bool.xor_assoc]
              congr 1
              by_cases hk : k = n
              · subst hk; simp [hb]
              · have : decide (k < n + 1) = decide (k < n) := by simp only [decide_eq_decide]; omega
                rw [this, decide_eq_false hk]; simp
            · rw [if_neg fun h => hb ((and_twoPow _ n (by omega)).1 h), ih (by omega)]
              congr 2
              by_cases hk : k = n
              · subst hk; simp [hb]
              · have : decide (k < n + 1) = decide (k < n) := by simp only [decide_eq_decide]; omega
                rw [this]
        rw [key _ h2]
        show _ = (bitAt (X k) i p).xor ((decide (i < nr ∧ p < nc) && bitAt A i p) && (if t < ff.degree then _ else _))
        rw [if_neg hd]

theorem ptrAddToAll_bits {ff : Option Gf2e} (nr nc : Nat) (A : Nat → Nat → Word) : ∀ (ts : List Nat) (X : Nat → Nat → Nat → Word),
    (∀ t ∈ ts, TargetOk ff t) → ∃ X', ptrAddToAll ff nr nc A ts X = some X' ∧
      ∀ k i p, bitAt (X' k) i p = bitAt (X k) i p + (decide (i < nr ∧ p < nc) * bitAt A i p) * (ts.map fun t => gBits ff t k).sum := by
  cases ff with
  | some ff =>
    intro ts
    induction ts with
    | nil => intro X _; exact ⟨X, rfl, fun k i p => by simp⟩
    | cons t ts ih =>
      intro X h
      obtain ⟨X1, e1, b1⟩ := ptrAddModred_bits nr nc A X (h t (by simp))
      obtain ⟨X2, e2, b2⟩ := ih X1 fun s hs => h s (by simp [hs])
      refine ⟨X2, ?_, fun k i p => ?_⟩
      · unfold ptrAddToAll at e2 ⊢
        simp only [List.foldlM_cons]
        rw [e1]
        exact e2
      · rw [b2, b1, List.map_cons, List.sum_cons, mul_add, ← add_assoc]
        rfl
  | none =>
    intro ts
    induction ts with
    | nil => intro X _; exact ⟨X, rfl, fun k i p => by simp⟩
    | cons t ts ih =>
      intro X h
      obtain ⟨X2, e2, b2⟩ := ih (setSlice X t (mzdAdd nr nc (X t) (X t) A)) fun s hs => h s (by simp [hs])
      refine ⟨X2, e2, fun k i p => ?_⟩
      rw [b2, setSlice_bits, List.map_cons, List.sum_cons, mul_add, ← add_assoc]
      rfl

theorem karaOperand_bits (nr nc : Nat) (A : Nat → Nat → Nat → Word) {as : List Nat} (h : as ≠ []) {i p : Nat} (hr : i < nr ∧ p < nc) :
    bitAt (karaOperand nr nc A as) i p = (as.map fun a => bitAt (A a) i p).sum := by
  have key : ∀ (l : List Nat) (T : Nat → Nat → Word), bitAt (l.foldl (fun T k => mzdAdd nr nc T T (A k)) T) i p =
      bitAt T i p + (l.map fun a => bitAt (A a) i p).sum := by
    intro l
    induction l with
    | nil => intro T; simp
    | cons a l ih =>
      intro T
      rw [List.foldl_cons, ih, bitAt_mzdAdd, if_pos hr, List.map_cons, List.sum_cons, ← add_assoc]
      rfl
  match as, h with
  | [a], _ => simp [karaOperand]
  | a :: b :: l, _ =>
    rw [karaOperand, key, bitAt_mzdAdd, if_pos hr, List.map_cons, List.sum_cons, List.map_cons, List.sum_cons, ← add_assoc]
    rfl

theorem mzdMul_bits (m k n : Nat) (C A B : Nat → Nat → Word) {i p : Nat} (hr : i < m ∧ p < n) :
    bitAt (mzdMul m k n C A B) i p = ∑ l ∈ range k, bitAt A i l * bitAt B l p := by
  unfold mzdMul
  rw [bitAt_ofBits, if_pos hr, xorRange_sum]
  rfl

/-- the bits added by one statement -/
theorem karaTerm_run {ff : Option Gf2e} (m K n : Nat) (A B X : Nat → Nat → Nat → Word) (T : KaraTerm) (ha : T.as ≠ []) (hb : T.bs ≠ [])
    (ht : ∀ t ∈ T.targets, TargetOk ff t) : ∃ X', T.run ff m K n A B X = some X' ∧
      ∀ k i p, bitAt (X' k) i p = bitAt (X k) i p + decide (i < m ∧ p < n) * ((T.targets.map fun t => gBits ff t k).sum *
        ∑ l ∈ range K, (T.as.map fun a => bitAt (A a) i l).sum * (T.bs.map fun b => bitAt (B b) l p).sum) := by
  obtain ⟨X', e, b⟩ := ptrAddToAll_bits m n (mzdMul m K n (fun _ _ => 0#64) (karaOperand m K A T.as) (karaOperand K n B T.bs))
    T.targets X ht
  refine ⟨X', e, fun k i p => ?_⟩
  rw [b]
  by_cases hr : i < m ∧ p < n
  · rw [mzdMul_bits _ _ _ _ _ _ hr, mul_assoc]
    congr 2
    rw [mul_comm]
    congr 1
    apply sum_congr rfl
    intro l hl
    rw [mem_range] at hl
    rw [karaOperand_bits m K A ha ⟨hr.1, hl⟩, karaOperand_bits K n B hb ⟨hl, hr.2⟩]
  · rw [decide_eq_false hr]
    show _ + (0 * _) * _ = _ + 0 * _
    rw [zero_mul, zero_mul, zero_mul]

theorem karaTerms_run {ff : Option Gf2e} (m K n : Nat) (A B : Nat → Nat → Nat → Word) : ∀ (terms : List KaraTerm) (X : Nat → Nat → Nat → Word),
    (∀ T ∈ terms, T.as ≠ [] ∧ T.bs ≠ [] ∧ ∀ t ∈ T.targets, TargetOk ff t) → ∃ X', karaRun terms ff m K n X A B = some X' ∧
      ∀ k i p, bitAt (X' k) i p = bitAt (X k) i p + decide (i < m ∧ p < n) *
        (terms.map fun T => (T.targets.map fun t => gBits ff t k).sum *
          ∑ l ∈ range K, (T.as.map fun a => bitAt (A a) i l).sum * (T.bs.map fun b => bitAt (B b) l p).sum).sum := by
  intro terms
  induction terms with
  | nil => intro X _; exact ⟨X, rfl, fun k i p => by simp⟩
  | cons T terms ih =>
    intro X h
    obtain ⟨h1, h2, h3⟩ := h T (by simp)
    obtain ⟨X1, e1, b1⟩ := karaTerm_run m K n A B X T h1 h2 h3
    obtain ⟨X2, e2, b2⟩ := ih X1 fun S hS => h S (by simp [hS])
    refine ⟨X2, ?_, fun k i p => ?_⟩
    · unfold karaRun at e2 ⊢
      rw [List.foldlM_cons, e1]
      exact e2
    · rw [b2, b1, List.map_cons, List.sum_cons, mul_add, ← add_assoc]

/-- `X` receives the product of the polynomials with coefficients `A` and `B` -/
def AddsProduct (d : Nat) (ff : Option Gf2e) (m K n : Nat) (X A B X' : Nat → Nat → Nat → Word) : Prop :=
  ∀ k i p, bitAt (X' k) i p = bitAt (X k) i p + decide (i < m ∧ p < n) *
    ∑ a ∈ range d, ∑ b ∈ range d, gBits ff (a + b) k * ∑ l ∈ range K, bitAt (A a) i l * bitAt (B b) l p

theorem karaRun_spec {d : Nat} {terms : List KaraTerm} (h : karaCheck d terms = true) {ff : Option Gf2e}
    (hf : ∀ t, t < 2 * d - 1 → TargetOk ff t) (m K n : Nat) (X A B : Nat → Nat → Nat → Word) :
    ∃ X', karaRun terms ff m K n X A B = some X' ∧ AddsProduct d ff m K n X A B X' := by
  obtain ⟨X', e, b⟩ := karaTerms_run m K n A B terms X fun T hT => by
    obtain ⟨h1, h2, _, _, h3⟩ := karaCheck_ok h hT
    exact ⟨h1, h2, fun t ht => hf t (h3 t ht)⟩
  refine ⟨X', e, fun k i p => ?_⟩
  rw [b, kara_sum h (fun t => gBits ff t k) (fun a l => bitAt (A a) i l) (fun b l => bitAt (B b) l p) K]

/-- the direct accumulation at the beginning of `karatsuba2` has the effect of the corresponding statement -/
theorem kara2Run_spec {ff : Option Gf2e} (hf : ∀ t, t < 3 → TargetOk ff t) (h1 : ∀ f, ff = some f → 1 < f.degree) (m K n : Nat)
    (X A B : Nat → Nat → Nat → Word) :
    ∃ X', kara2Run ff m K n X A B = some X' ∧ AddsProduct 2 ff m K n X A B X' := by
  have hok : ∀ T ∈ karaTerms2, T.as ≠ [] ∧ T.bs ≠ [] ∧ ∀ t ∈ T.targets, TargetOk ff t := by
    intro T hT
    obtain ⟨h1, h2, _, _, h3⟩ := karaCheck_ok karaCheck2 (List.mem_cons_of_mem _ hT)
    exact ⟨h1, h2, fun t ht => hf t (h3 t ht)⟩
  set X1 := setSlice X 1 (mzdAddmul m K n (X 1) (mzdAdd m K (fun _ _ => 0#64) (A 0) (A 1)) (mzdAdd K n (fun _ _ => 0#64) (B 0) (B 1)))
    with hX1
  obtain ⟨X', e, b⟩ := karaTerms_run m K n A B karaTerms2 X1 hok
  refine ⟨X', e, fun k i p => ?_⟩
  have hg : gBits ff 1 k = decide (k = 1) := by
    cases ff with
    | none => rfl
    | some f =>
      show (if 1 < f.degree then decide (k = 1) else _) = _
      rw [if_pos (h1 f rfl)]
  have hb1 : bitAt (X1 k) i p = bitAt (X k) i p + decide (i < m ∧ p < n) * (([1].map fun t => gBits ff t k).sum *
        ∑ l ∈ range K, ([0, 1].map fun a => bitAt (A a) i l).sum * ([0, 1].map fun b => bitAt (B b) l p).sum) := by
    rw [hX1, List.map_cons, List.map_nil, List.sum_cons, List.sum_nil, add_zero, hg]
    unfold setSlice
    by_cases hk : k = 1
    · subst hk
      rw [if_pos rfl, decide_eq_true rfl]
      unfold mzdAddmul
      rw [bitAt_ofBits]
      by_cases hr : i < m ∧ p < n
      · rw [if_pos hr, decide_eq_true hr, xorRange_sum]
        have e1 : ∀ x : Bool, true * x = x := fun x => one_mul x
        rw [e1, e1]
        refine congrArg (bitAt (X 1) i p + ·) ?_
        apply sum_congr rfl
        intro l hl
        rw [mem_range] at hl
        show bitAt (mzdAdd _ _ _ _ _) i l * bitAt (mzdAdd _ _ _ _ _) l p = _
        rw [bitAt_mzdAdd, bitAt_mzdAdd, if_pos ⟨hr.1, hl⟩, if_pos ⟨hl, hr.2⟩]
        simp only [List.map_cons, List.map_nil, List.sum_cons, List.sum_nil, add_zero]
        rfl
      · rw [if_neg hr, decide_eq_false hr]
        show _ = _ + 0 * _
        rw [zero_mul, add_zero]
    · rw [if_neg hk, decide_eq_false hk]
      show _ = _ + _ * (0 * _)
      rw [zero_mul, mul_zero, add_zero]
  have := kara_sum karaCheck2 (fun t => gBits ff t k) (fun a l => bitAt (A a) i l) (fun b l => bitAt (B b) l p) K
  rw [List.map_cons, List.sum_cons] at this
  rw [b, hb1, ← this, mul_add, ← add_assoc]

theorem ptrAddmulKaratsuba_spec {d : Nat} (h2 : 2 ≤ d) (h16 : d ≤ 16) {ff : Option Gf2e}
    (hf : ∀ t, t < 2 * d - 1 → TargetOk ff t) (m K n : Nat) (X A B : Nat → Nat → Nat → Word) :
    ∃ X', ptrAddmulKaratsuba? d ff m K n X A B = some X' ∧ AddsProduct d ff m K n X A B X' := by
  have hc : d = 2 ∨ d = 3 ∨ d = 4 ∨ d = 5 ∨ d = 6 ∨ d = 7 ∨ d = 8 ∨ d = 9 ∨ d = 10 ∨ d = 11 ∨ d = 12 ∨ d = 13 ∨ d = 14 ∨ d = 15 ∨
    d = 16 := by omega
  rcases hc with h | h | h | h | h | h | h | h | h | h | h | h | h | h | h <;> subst h
  · refine kara2Run_spec hf (fun f he => ?_) m K n X A B
    have := (hf 2 (by norm_num) f he).1
    omega
  · exact karaRun_spec karaCheck3 hf m K n X A B
  · exact karaRun_spec karaCheck4 hf m K n X A B
  · exact karaRun_spec karaCheck5 hf m K n X A B
  · exact karaRun_spec karaCheck6 hf m K n X A B
  · exact karaRun_spec karaCheck7 hf m K n X A B
  · exact karaRun_spec karaCheck8 hf m K n X A B
  · exact karaRun_spec karaCheck9 hf m K n X A B
  · exact karaRun_spec karaCheck10 hf m K n X A B
  · exact karaRun_spec karaCheck11 hf m K n X A B
  · exact karaRun_spec karaCheck12 hf m K n X A B
  · exact karaRun_spec karaCheck13 hf m K n X A B
  · exact karaRun_spec karaCheck14 hf m K n X A B
  · exact karaRun_spec karaCheck15 hf m K n X A B
  · exact karaRun_spec karaCheck16 hf m K n X A B

end M4rie
