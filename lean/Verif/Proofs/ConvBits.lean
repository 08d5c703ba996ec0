import Verif.Model.Conv
import Verif.Proofs.MzedMat

/-! Bit-level facts about the gather/spread functions of the conversions. -/

namespace M4rie
open M4rie.Spec

/-- compatible with bitwise or -/
structure OrLin (f : Word → Word) : Prop where
  zero : f 0#64 = 0#64
  or : ∀ a b, f (a ||| b) = f a ||| f b

theorem OrLin.comp {f g : Word → Word} (hf : OrLin f) (hg : OrLin g) : OrLin (fun a => f (g a)) :=
  ⟨by simp only [hg.zero, hf.zero], fun a b => by simp only [hg.or, hf.or]⟩

theorem orLin_and (m : Word) : OrLin (fun a => a &&& m) :=
  ⟨by simp, fun a b => by ext i; simp [Bool.and_or_distrib_right]⟩

theorem orLin_shl (l : Nat) : OrLin (fun a => a <<< l) :=
  ⟨by simp, fun a b => by
    ext i hi
    simp only [BitVec.getElem_shiftLeft, BitVec.getElem_or, BitVec.getLsbD_or]
    by_cases h : i < l <;> simp [h]⟩

theorem orLin_shr (l : Nat) : OrLin (fun a => a >>> l) :=
  ⟨by simp, fun a b => by ext i hi; simp⟩

theorem OrLin.sup {f g : Word → Word} (hf : OrLin f) (hg : OrLin g) : OrLin (fun a => f a ||| g a) :=
  ⟨by simp only [hf.zero, hg.zero]; rfl, fun a b => by
    simp only [hf.or, hg.or]
    ext i hi
    simp only [BitVec.getElem_or]
    cases (f a)[i] <;> cases (f b)[i] <;> cases (g a)[i] <;> cases (g b)[i] <;> rfl⟩

theorem orLin_gather (m : Word) (s l : Nat) : OrLin (gatherStep m s l) :=
  (orLin_and m).sup ((orLin_shl l).comp (orLin_and (m >>> s)))
theorem orLin_spread (m : Word) (s l : Nat) : OrLin (spreadStep m s l) :=
  (orLin_and m).sup ((orLin_shr l).comp (orLin_and (m >>> s)))
theorem orLin_spreadFirst (m left : Word) (s l : Nat) : OrLin (spreadFirst m left s l) :=
  ((orLin_and left).comp (orLin_and m)).sup ((orLin_shr l).comp ((orLin_and left).comp (orLin_and (m >>> s))))

theorem orLin_wordSlice : ∀ n, n = 2 ∨ n = 4 ∨ n = 8 ∨ n = 16 → OrLin (wordSlice n) := by
  rintro n (rfl | rfl | rfl | rfl)
  · exact (orLin_gather _ _ _).comp ((orLin_gather _ _ _).comp ((orLin_gather _ _ _).comp
      ((orLin_gather _ _ _).comp (orLin_gather _ _ _))))
  · exact (orLin_gather _ _ _).comp ((orLin_gather _ _ _).comp ((orLin_gather _ _ _).comp (orLin_gather _ _ _)))
  · exact (orLin_gather _ _ _).comp ((orLin_gather _ _ _).comp (orLin_gather _ _ _))
  · exact (orLin_gather _ _ _).comp (orLin_gather _ _ _)

theorem orLin_wordCling : ∀ n, n = 2 ∨ n = 4 ∨ n = 8 ∨ n = 16 → OrLin (wordCling n) := by
  rintro n (rfl | rfl | rfl | rfl)
  · exact (orLin_spread _ _ _).comp ((orLin_spread _ _ _).comp ((orLin_spread _ _ _).comp
      ((orLin_spread _ _ _).comp (orLin_spreadFirst _ _ _ _))))
  · exact (orLin_spread _ _ _).comp ((orLin_spread _ _ _).comp ((orLin_spread _ _ _).comp (orLin_spreadFirst _ _ _ _)))
  · exact (orLin_spread _ _ _).comp ((orLin_spread _ _ _).comp (orLin_spreadFirst _ _ _ _))
  · exact (orLin_spread _ _ _).comp (orLin_spreadFirst _ _ _ _)

theorem getLsbD_orAll (l : List Word) (p : Nat) : (orAll l).getLsbD p = l.any (fun v => v.getLsbD p) := by
  induction l with
  | nil => simp [orAll]
  | cons a l ih =>
    have : orAll (a :: l) = a ||| orAll l := rfl
    rw [this, BitVec.getLsbD_or, ih, List.any_cons]

theorem OrLin.orAll {f : Word → Word} (hf : OrLin f) (l : List Word) : f (M4rie.orAll l) = M4rie.orAll (l.map f) := by
  induction l with
  | nil => exact hf.zero
  | cons a l ih =>
    have : M4rie.orAll (a :: l) = a ||| M4rie.orAll l := rfl
    rw [this, hf.or, ih]
    rfl

theorem word_eq_orAll (a : Word) : a = orAll ((List.range 64).map fun q => if a.getLsbD q then twoPow q else 0#64) := by
  apply BitVec.eq_of_getLsbD_eq
  intro i hi
  rw [getLsbD_orAll, List.any_map]
  have key : ∀ q, ((fun v : Word => v.getLsbD i) ∘ fun q => if a.getLsbD q then twoPow q else 0#64) q =
      (a.getLsbD q && decide (q = i)) := by
    intro q
    simp only [Function.comp]
    by_cases h : a.getLsbD q
    · rw [if_pos h, h, getLsbD_twoPow]
      simp only [Bool.true_and, hi, decide_true]
    · rw [if_neg h]; simp [h]
  have : ((fun v : Word => v.getLsbD i) ∘ fun q => if a.getLsbD q then twoPow q else 0#64) =
      fun q => (a.getLsbD q && decide (q = i)) := funext key
  rw [this]
  cases h : a.getLsbD i
  · symm
    rw [List.any_eq_false]
    intro q _
    by_cases hq : q = i
    · subst hq; simp [h]
    · simp [hq]
  · symm
    rw [List.any_eq_true]
    exact ⟨i, List.mem_range.mpr hi, by simp [h]⟩

theorem OrLin.bit {f : Word → Word} (hf : OrLin f) {c : Nat → Bool} {s : Nat → Nat}
    (ht : ∀ p < 64, ∀ q < 64, (f (twoPow q)).getLsbD p = (c p && decide (q = s p))) (a : Word) {p : Nat} (hp : p < 64) :
    (f a).getLsbD p = (c p && a.getLsbD (s p)) := by
  conv_lhs => rw [word_eq_orAll a]
  rw [hf.orAll, getLsbD_orAll, List.map_map, List.any_map]
  have key : ∀ q ∈ List.range 64, ((fun v : Word => v.getLsbD p) ∘ f ∘ fun q => if a.getLsbD q then twoPow q else 0#64) q =
      (a.getLsbD q && (c p && decide (q = s p))) := by
    intro q hq
    simp only [Function.comp]
    by_cases h : a.getLsbD q
    · rw [if_pos h, h, ht p hp q (List.mem_range.mp hq)]; simp
    · rw [if_neg h, hf.zero]; simp [h]
  rw [Bool.eq_iff_iff, List.any_eq_true]
  constructor
  · rintro ⟨q, hq, h⟩
    rw [key q hq] at h
    simp only [Bool.and_eq_true, decide_eq_true_eq] at h ⊢
    exact ⟨h.2.1, h.2.2 ▸ h.1⟩
  · intro h
    simp only [Bool.and_eq_true] at h
    have hs : s p < 64 := by
      by_contra hge
      rw [BitVec.getLsbD_of_ge _ _ (by omega)] at h
      simp at h
    refine ⟨s p, List.mem_range.mpr hs, ?_⟩
    rw [key _ (List.mem_range.mpr hs)]
    simp [h.1, h.2]

/-- the gathered word: the top `64/n` bits are the top bits of the `n`-bit lanes -/
theorem wordSlice_bit {n : Nat} (hn : n = 2 ∨ n = 4 ∨ n = 8 ∨ n = 16) (a : Word) {p : Nat} (hp : p < 64) :
    (wordSlice n (a &&& sliceMask n)).getLsbD p =
      (decide (64 - 64 / n ≤ p) && a.getLsbD (n * (p - (64 - 64 / n)) + (n - 1))) := by
  have hl := (orLin_wordSlice n hn).comp (orLin_and (sliceMask n))
  refine hl.bit (c := fun p => decide (64 - 64 / n ≤ p)) (s := fun p => n * (p - (64 - 64 / n)) + (n - 1)) ?_ a hp
  rcases hn with rfl | rfl | rfl | rfl <;> decide +kernel

/-- the spread word: the top bits of the `n`-bit lanes are the top `64/n` bits -/
theorem wordCling_bit {n : Nat} (hn : n = 2 ∨ n = 4 ∨ n = 8 ∨ n = 16) (a : Word) {p : Nat} (hp : p < 64) :
    (wordCling n a).getLsbD p = (decide (p % n = n - 1) && a.getLsbD (64 - 64 / n + p / n)) := by
  have hl := orLin_wordCling n hn
  refine hl.bit (c := fun p => decide (p % n = n - 1)) (s := fun p => 64 - 64 / n + p / n) ?_ a hp
  rcases hn with rfl | rfl | rfl | rfl <;> decide +kernel

end M4rie
