import Verif.Model.Compare
import Verif.Spec.Compare
import Verif.Proofs.MzedMat
import Mathlib.Data.Nat.Bitwise

/-!
# M4RI's `mzd_cmp` is a lexicographic order
-/

namespace M4rie.Spec

/-! ### the order -/

theorem RowBefore.asymm {n : Nat} {f g : Nat → Nat} (h : RowBefore n f g) : ¬ RowBefore n g f := by
  rintro ⟨j', h1', h2', h3'⟩
  obtain ⟨j, h1, h2, h3⟩ := h
  rcases Nat.lt_trichotomy j j' with h | h | h
  · have := h3 j' h h1'; omega
  · subst h; omega
  · have := h3' j h h1; omega

theorem RowBefore.ne {n : Nat} {f g : Nat → Nat} (h : RowBefore n f g) : ¬ ∀ j, j < n → f j = g j := by
  intro he
  obtain ⟨j, h1, h2, -⟩ := h
  have := he j h1
  omega

theorem RowBefore.trans {n : Nat} {f g k : Nat → Nat} (h : RowBefore n f g) (h' : RowBefore n g k) : RowBefore n f k := by
  obtain ⟨j, h1, h2, h3⟩ := h
  obtain ⟨j', h1', h2', h3'⟩ := h'
  rcases Nat.lt_trichotomy j j' with hh | hh | hh
  · exact ⟨j', h1', by have := h3 j' hh h1'; omega, fun i hi hn => (h3 i (by omega) hn).trans (h3' i hi hn)⟩
  · subst hh
    exact ⟨j, h1, by omega, fun i hi hn => (h3 i hi hn).trans (h3' i hi hn)⟩
  · exact ⟨j, h1, by have := h3' j hh h1; omega, fun i hi hn => (h3 i hi hn).trans (h3' i (by omega) hn)⟩

theorem RowBefore.congr {n : Nat} {f g f' g' : Nat → Nat} (hf : ∀ j, j < n → f j = f' j) (hg : ∀ j, j < n → g j = g' j) (h : RowBefore n f g) : RowBefore n f' g' := by
  obtain ⟨j, h1, h2, h3⟩ := h
  exact ⟨j, h1, by rw [← hf j h1, ← hg j h1]; exact h2, fun j' a b => by rw [← hf j' b, ← hg j' b]; exact h3 j' a b⟩

theorem MatBefore.asymm {m n : Nat} {M N : Nat → Nat → Nat} (h : MatBefore m n M N) : ¬ MatBefore m n N M := by
  rintro ⟨i', h1', h2', h3'⟩
  obtain ⟨i, h1, h2, h3⟩ := h
  rcases Nat.lt_trichotomy i i' with hh | hh | hh
  · exact h3.ne fun j hj => (h2' i hh j hj).symm
  · subst hh; exact h3.asymm h3'
  · exact h3'.ne fun j hj => (h2 i' hh j hj).symm

theorem MatBefore.ne {m n : Nat} {M N : Nat → Nat → Nat} (h : MatBefore m n M N) : ¬ MatSame m n M N := by
  intro he
  obtain ⟨i, h1, -, h3⟩ := h
  exact h3.ne fun j hj => he i h1 j hj

theorem MatSame.symm {m n : Nat} {M N : Nat → Nat → Nat} (h : MatSame m n M N) : MatSame m n N M := fun i hi j hj => (h i hi j hj).symm

theorem MatBefore.trans {m n : Nat} {M N K : Nat → Nat → Nat} (h : MatBefore m n M N) (h' : MatBefore m n N K) : MatBefore m n M K := by
  obtain ⟨i, h1, h2, h3⟩ := h
  obtain ⟨i', h1', h2', h3'⟩ := h'
  rcases Nat.lt_trichotomy i i' with hh | hh | hh
  · exact ⟨i, h1, fun a ha j hj => (h2 a ha j hj).trans (h2' a (by omega) j hj), h3.congr (fun _ _ => rfl) fun j hj => h2' i hh j hj⟩
  · subst hh
    exact ⟨i, h1, fun a ha j hj => (h2 a ha j hj).trans (h2' a ha j hj), h3.trans h3'⟩
  · exact ⟨i', h1', fun a ha j hj => (h2 a (by omega) j hj).trans (h2' a ha j hj), h3'.congr (fun j hj => (h2 i' hh j hj).symm) fun _ _ => rfl⟩

end M4rie.Spec

namespace M4rie
open M4rie.Spec

/-! ### words -/

/-- the highest bit in which two words differ decides -/
theorem word_lt {x y : Word} (h : x < y) : ∃ k, k < 64 ∧ x.getLsbD k = false ∧ y.getLsbD k = true ∧ ∀ k', k < k' → x.getLsbD k' = y.getLsbD k' := by
  have hne : x.toNat ^^^ y.toNat ≠ 0 := by
    intro h0
    rw [Nat.xor_eq_zero_iff] at h0
    have : x.toNat < y.toNat := h
    omega
  obtain ⟨k, h1, h2⟩ := Nat.exists_most_significant_bit hne
  have above : ∀ k', k < k' → x.toNat.testBit k' = y.toNat.testBit k' := by
    intro k' hk
    have := h2 k' hk
    rw [Nat.testBit_xor] at this
    simpa using this
  rw [Nat.testBit_xor] at h1
  have hk64 : k < 64 := by
    by_contra hk
    have a1 := Nat.testBit_lt_two_pow (lt_of_lt_of_le x.isLt (Nat.pow_le_pow_right (by norm_num) (show 64 ≤ k by omega)))
    have a2 := Nat.testBit_lt_two_pow (lt_of_lt_of_le y.isLt (Nat.pow_le_pow_right (by norm_num) (show 64 ≤ k by omega)))
    rw [a1, a2] at h1
    exact absurd h1 (by decide)
  cases hx : x.toNat.testBit k with
  | false =>
    rw [hx, Bool.false_xor] at h1
    exact ⟨k, hk64, hx, h1, fun k' hk => above k' hk⟩
  | true =>
    rw [hx] at h1
    have hy : y.toNat.testBit k = false := by
      cases hy : y.toNat.testBit k
      · rfl
      · rw [hy] at h1; exact absurd h1 (by decide)
    have : y.toNat < x.toNat := Nat.lt_of_testBit k hy hx fun j hj => (above j hj).symm
    have : x.toNat < y.toNat := h
    omega

theorem maskWord_bit {nc j k : Nat} (x : Word) (hj : j < (nc + 63) / 64) (hk : k < 64) : (maskWord nc j x).getLsbD k = (decide (64 * j + k < nc) && x.getLsbD k) := by
  unfold maskWord
  by_cases h : j + 1 = (nc + 63) / 64
  · rw [if_pos h, BitVec.getLsbD_and, BitVec.getLsbD_ushiftRight, BitVec.getLsbD_allOnes, Bool.and_comm]
    congr 1
    by_cases h2 : 64 * j + k < nc
    · rw [decide_eq_true h2, decide_eq_true (by omega)]
    · rw [decide_eq_false h2, decide_eq_false (by omega)]
  · rw [if_neg h, decide_eq_true (by omega), Bool.true_and]

/-- the bits of a row as numbers -/
def rowBits (r : Nat → Word) (p : Nat) : Nat := ((r (p / 64)).getLsbD (p % 64)).toNat

theorem rowBits_at (r : Nat → Word) {j k : Nat} (hk : k < 64) : rowBits r (64 * j + k) = ((r j).getLsbD k).toNat := by
  unfold rowBits
  rw [show (64 * j + k) / 64 = j by omega, show (64 * j + k) % 64 = k by omega]

theorem maskWord_before {nc j : Nat} {a b : Nat → Word} (hj : j < (nc + 63) / 64) (h : maskWord nc j (a j) < maskWord nc j (b j)) :
    RowBefore (min (64 * (j + 1)) nc) (rowBits a) (rowBits b) := by
  obtain ⟨k, h1, h2, h3, h4⟩ := word_lt h
  rw [maskWord_bit _ hj h1] at h2 h3
  have hk : 64 * j + k < nc := by
    by_contra hn
    rw [decide_eq_false hn] at h3
    cases h3
  rw [decide_eq_true hk, Bool.true_and] at h2 h3
  refine ⟨64 * j + k, by omega, by rw [rowBits_at _ h1, rowBits_at _ h1, h2, h3]; decide, fun p hp hp' => ?_⟩
  obtain ⟨q, rfl⟩ : ∃ q, p = 64 * j + q := ⟨p - 64 * j, by omega⟩
  have hq : q < 64 := by omega
  have := h4 q (by omega)
  rw [maskWord_bit _ hj hq, maskWord_bit _ hj hq, decide_eq_true (by omega), Bool.true_and, Bool.true_and] at this
  rw [rowBits_at _ hq, rowBits_at _ hq, this]

theorem mzdCmpRow_spec (nc : Nat) (a b : Nat → Word) : ∀ q, q ≤ (nc + 63) / 64 →
    (mzdCmpRow nc a b q = -1#32 ∧ RowBefore (min (64 * q) nc) (rowBits a) (rowBits b)) ∨ (mzdCmpRow nc a b q = 1#32 ∧ RowBefore (min (64 * q) nc) (rowBits b) (rowBits a)) ∨
    (mzdCmpRow nc a b q = 0#32 ∧ ∀ p, p < min (64 * q) nc → rowBits a p = rowBits b p) := by
  intro q
  induction q with
  | zero => exact fun _ => Or.inr (Or.inr ⟨rfl, fun p hp => by omega⟩)
  | succ q ih =>
    intro hq
    rw [mzdCmpRow]
    by_cases h1 : maskWord nc q (a q) < maskWord nc q (b q)
    · rw [if_pos h1]
      exact Or.inl ⟨rfl, maskWord_before (by omega) h1⟩
    rw [if_neg h1]
    by_cases h2 : maskWord nc q (b q) < maskWord nc q (a q)
    · rw [if_pos h2]
      exact Or.inr (Or.inl ⟨rfl, maskWord_before (by omega) h2⟩)
    rw [if_neg h2]
    have he : maskWord nc q (a q) = maskWord nc q (b q) := by
      have a1 : ¬ (maskWord nc q (a q)).toNat < (maskWord nc q (b q)).toNat := h1
      have a2 : ¬ (maskWord nc q (b q)).toNat < (maskWord nc q (a q)).toNat := h2
      exact BitVec.eq_of_toNat_eq (by omega)
    have top : ∀ p, min (64 * q) nc ≤ p → p < min (64 * (q + 1)) nc → rowBits a p = rowBits b p := by
      intro p hp hp'
      obtain ⟨k, rfl⟩ : ∃ k, p = 64 * q + k := ⟨p - 64 * q, by omega⟩
      have hk : k < 64 := by omega
      have := congrArg (fun z => BitVec.getLsbD z k) he
      rw [maskWord_bit _ (by omega) hk, maskWord_bit _ (by omega) hk, decide_eq_true (by omega), Bool.true_and, Bool.true_and] at this
      rw [rowBits_at _ hk, rowBits_at _ hk, this]
    have ext : ∀ f g : Nat → Nat, (∀ p, min (64 * q) nc ≤ p → p < min (64 * (q + 1)) nc → f p = g p) → RowBefore (min (64 * q) nc) f g → RowBefore (min (64 * (q + 1)) nc) f g := by
      rintro f g ht ⟨j, e1, e2, e3⟩
      refine ⟨j, by omega, e2, fun j' e4 e5 => ?_⟩
      by_cases hj : j' < min (64 * q) nc
      · exact e3 j' e4 hj
      · exact ht j' (by omega) e5
    rcases ih (by omega) with ⟨e, h⟩ | ⟨e, h⟩ | ⟨e, h⟩
    · exact Or.inl ⟨e, ext _ _ top h⟩
    · exact Or.inr (Or.inl ⟨e, ext _ _ (fun p h1 h2 => (top p h1 h2).symm) h⟩)
    · refine Or.inr (Or.inr ⟨e, fun p hp => ?_⟩)
      by_cases hj : p < min (64 * q) nc
      · exact h p hj
      · exact top p (by omega) hp

theorem mzdCmpRow_full (nc : Nat) (a b : Nat → Word) :
    (mzdCmpRow nc a b ((nc + 63) / 64) = -1#32 ∧ RowBefore nc (rowBits a) (rowBits b)) ∨ (mzdCmpRow nc a b ((nc + 63) / 64) = 1#32 ∧ RowBefore nc (rowBits b) (rowBits a)) ∨
    (mzdCmpRow nc a b ((nc + 63) / 64) = 0#32 ∧ ∀ p, p < nc → rowBits a p = rowBits b p) := by
  have := mzdCmpRow_spec nc a b _ le_rfl
  rwa [show min (64 * ((nc + 63) / 64)) nc = nc by omega] at this

theorem mzdCmpRows_spec (nc : Nat) (A B : Nat → Nat → Word) : ∀ n i, (∀ i', i' < i → ∀ p, p < nc → rowBits (A i') p = rowBits (B i') p) →
    (mzdCmpRows nc A B n i = -1#32 ∧ MatBefore (i + n) nc (fun i => rowBits (A i)) (fun i => rowBits (B i))) ∨
    (mzdCmpRows nc A B n i = 1#32 ∧ MatBefore (i + n) nc (fun i => rowBits (B i)) (fun i => rowBits (A i))) ∨
    (mzdCmpRows nc A B n i = 0#32 ∧ MatSame (i + n) nc (fun i => rowBits (A i)) (fun i => rowBits (B i))) := by
  intro n
  induction n with
  | zero => intro i h; exact Or.inr (Or.inr ⟨rfl, h⟩)
  | succ n ih =>
    intro i h
    rw [mzdCmpRows]
    rcases mzdCmpRow_full nc (A i) (B i) with ⟨e, hb⟩ | ⟨e, hb⟩ | ⟨e, hb⟩
    · rw [e, if_pos (by decide)]
      exact Or.inl ⟨rfl, i, by omega, h, hb⟩
    · rw [e, if_pos (by decide)]
      exact Or.inr (Or.inl ⟨rfl, i, by omega, fun i' hi j hj => (h i' hi j hj).symm, hb⟩)
    · rw [e, if_neg (by decide), show i + (n + 1) = i + 1 + n by omega]
      refine ih (i + 1) fun i' hi => ?_
      by_cases hii : i' = i
      · subst hii; exact hb
      · exact h i' (by omega)

/-- the bits of a matrix as numbers -/
def matBits (A : Nat → Nat → Word) (i p : Nat) : Nat := (bitAt A i p).toNat

theorem mzdCmp_spec (m n : Nat) (A B : Nat → Nat → Word) :
    (mzdCmp ((m, n), A) ((m, n), B) = -1#32 ∧ MatBefore m n (matBits A) (matBits B)) ∨ (mzdCmp ((m, n), A) ((m, n), B) = 1#32 ∧ MatBefore m n (matBits B) (matBits A)) ∨
    (mzdCmp ((m, n), A) ((m, n), B) = 0#32 ∧ MatSame m n (matBits A) (matBits B)) := by
  have := mzdCmpRows_spec n A B m 0 (fun i' hi => absurd hi (Nat.not_lt_zero _))
  rw [Nat.zero_add] at this
  have e : mzdCmp ((m, n), A) ((m, n), B) = mzdCmpRows n A B m 0 := by
    unfold mzdCmp
    dsimp only
    rw [if_neg (Nat.lt_irrefl _), if_neg (Nat.lt_irrefl _), if_neg (Nat.lt_irrefl _), if_neg (Nat.lt_irrefl _)]
  rw [e]
  exact this

/-! ### elements -/

/-- from the bits of a packed row to its elements -/
theorem lanes_before {w : Nat} (hw : 0 < w) {f g : Nat → Bool} {F G : Nat → Word} (hF : ∀ j q, q < w → (F j).getLsbD q = f (w * j + q)) (hG : ∀ j q, q < w → (G j).getLsbD q = g (w * j + q))
    (hF' : ∀ j q, w ≤ q → (F j).getLsbD q = false) (hG' : ∀ j q, w ≤ q → (G j).getLsbD q = false) {n : Nat} (h : RowBefore (w * n) (fun p => (f p).toNat) (fun p => (g p).toNat)) :
    RowBefore n (fun j => (F j).toNat) (fun j => (G j).toNat) := by
  obtain ⟨p, h1, h2, h3⟩ := h
  have hq : p % w < w := Nat.mod_lt _ hw
  have hp : w * (p / w) + p % w = p := Nat.div_add_mod p w
  have hn : p / w < n := Nat.div_lt_of_lt_mul h1
  have inj : ∀ {x y : Bool}, x.toNat = y.toNat → x = y := by decide
  have lt : ∀ {x y : Bool}, x.toNat < y.toNat → x = false ∧ y = true := by decide
  have hle : w * (p / w + 1) ≤ w * n := Nat.mul_le_mul_left _ hn
  rw [Nat.mul_add, Nat.mul_one] at hle
  obtain ⟨b1, b2⟩ := lt h2
  refine ⟨p / w, hn, ?_, fun j' hj hj' => ?_⟩
  · refine Nat.lt_of_testBit (p % w) ?_ ?_ fun q hqq => ?_
    · show (F (p / w)).getLsbD (p % w) = false
      rw [hF _ _ hq, hp]; exact b1
    · show (G (p / w)).getLsbD (p % w) = true
      rw [hG _ _ hq, hp]; exact b2
    · show (F (p / w)).getLsbD q = (G (p / w)).getLsbD q
      by_cases hqw : q < w
      · rw [hF _ _ hqw, hG _ _ hqw]
        exact inj (h3 _ (by omega) (by omega))
      · rw [hF' _ _ (by omega), hG' _ _ (by omega)]
  · have a1 : w * (p / w + 1) ≤ w * j' := Nat.mul_le_mul_left _ hj
    have a2 : w * (j' + 1) ≤ w * n := Nat.mul_le_mul_left _ hj'
    rw [Nat.mul_add, Nat.mul_one] at a1 a2
    refine congrArg BitVec.toNat (BitVec.eq_of_getLsbD_eq fun q _ => ?_)
    by_cases hqw : q < w
    · rw [hF _ _ hqw, hG _ _ hqw]
      exact inj (h3 _ (by omega) (by omega))
    · rw [hF' _ _ (by omega), hG' _ _ (by omega)]

end M4rie
