import Verif.Proofs.Gf2eInit
import Mathlib.RingTheory.AdjoinRoot
import Mathlib.Algebra.CharP.Two
import Mathlib.SetTheory.Cardinal.Finite

namespace M4rie
open Polynomial Spec

/-- Elements of GF(2^e) as stored by the library: words `< 2^e`. -/
def Elem (ff : Gf2e) : Type := {x : Word // x.toNat < 2 ^ ff.degree}

variable {ff : Gf2e}

instance : DecidableEq (Elem ff) := inferInstanceAs (DecidableEq {x : Word // x.toNat < 2 ^ ff.degree})

namespace Elem

theorem ext' {a b : Elem ff} (h : a.1 = b.1) : a = b := Subtype.ext h

theorem xor_lt {n : Nat} {a b : Word} (ha : a.toNat < 2 ^ n) (hb : b.toNat < 2 ^ n) :
    (a ^^^ b).toNat < 2 ^ n := by
  rw [BitVec.toNat_xor]; exact Nat.xor_lt_two_pow ha hb

instance : Zero (Elem ff) := ⟨⟨0#64, by simp⟩⟩
instance : Add (Elem ff) := ⟨fun a b => ⟨a.1 ^^^ b.1, xor_lt a.2 b.2⟩⟩
instance : Neg (Elem ff) := ⟨fun a => a⟩
instance : Sub (Elem ff) := ⟨fun a b => a + b⟩

@[simp] theorem zero_val : (0 : Elem ff).1 = 0#64 := rfl
@[simp] theorem add_val (a b : Elem ff) : (a + b).1 = a.1 ^^^ b.1 := rfl
@[simp] theorem neg_val (a : Elem ff) : (-a).1 = a.1 := rfl

variable [hff : Fact (FFOK ff)]

instance : One (Elem ff) := ⟨⟨1#64, by
  have := hff.out.min.e1
  show 1 < 2 ^ ff.degree
  calc 1 < 2 ^ 1 := by norm_num
    _ ≤ 2 ^ ff.degree := Nat.pow_le_pow_right (by norm_num) this⟩⟩
/-- multiplication is `gf2e_mul` -/
instance : Mul (Elem ff) := ⟨fun a b => ⟨gf2eMul ff a.1 b.1, (gf2eMul_spec hff.out a.1 b.1 a.2 b.2).2.1⟩⟩

@[simp] theorem one_val : (1 : Elem ff).1 = 1#64 := rfl
@[simp] theorem mul_val (a b : Elem ff) : (a * b).1 = gf2eMul ff a.1 b.1 := rfl

/-- interpretation in GF(2)[X]/(f) -/
noncomputable def toRoot (a : Elem ff) : AdjoinRoot (toPoly ff.minpoly) :=
  AdjoinRoot.mk (toPoly ff.minpoly) (toPoly a.1)

theorem mk_mod (f p : (ZMod 2)[X]) : AdjoinRoot.mk f (p % f) = AdjoinRoot.mk f p := by
  rw [AdjoinRoot.mk_eq_mk]
  have := EuclideanDomain.div_add_mod p f
  refine ⟨-(p / f), ?_⟩
  linear_combination this

omit hff in
theorem toRoot_zero : toRoot (0 : Elem ff) = 0 := by simp [toRoot]
omit hff in
theorem toRoot_add (a b : Elem ff) : toRoot (a + b) = toRoot a + toRoot b := by simp [toRoot]
theorem toRoot_one : toRoot (1 : Elem ff) = 1 := by simp [toRoot, toPoly_one]
theorem toRoot_mul (a b : Elem ff) : toRoot (a * b) = toRoot a * toRoot b := by
  unfold toRoot
  rw [mul_val, (gf2eMul_spec hff.out a.1 b.1 a.2 b.2).2.2, mk_mod, map_mul]

theorem toRoot_injective : Function.Injective (toRoot (ff := ff)) := by
  intro a b h
  unfold toRoot at h
  rw [AdjoinRoot.mk_eq_mk] at h
  apply ext'
  apply toPoly_injective
  have hd : (toPoly a.1 - toPoly b.1).degree < (toPoly ff.minpoly).degree := by
    rw [hff.out.min.degree]
    exact lt_of_le_of_lt (degree_sub_le _ _) (max_lt ((degree_toPoly_lt_iff' _ _).2 a.2) ((degree_toPoly_lt_iff' _ _).2 b.2))
  exact sub_eq_zero.1 (Polynomial.eq_zero_of_dvd_of_degree_lt h hd)

omit hff in
theorem add_self (a : Elem ff) : a + a = 0 := ext' (by simp)

instance instCommRing : CommRing (Elem ff) where
  add_assoc a b c := ext' (by simp [BitVec.xor_assoc])
  zero_add a := ext' (by simp)
  add_zero a := ext' (by simp)
  add_comm a b := ext' (by simp [BitVec.xor_comm])
  neg_add_cancel a := ext' (by simp)
  mul_assoc a b c := toRoot_injective (by simp only [toRoot_mul, mul_assoc])
  one_mul a := toRoot_injective (by simp only [toRoot_mul, toRoot_one, one_mul])
  mul_one a := toRoot_injective (by simp only [toRoot_mul, toRoot_one, mul_one])
  mul_comm a b := toRoot_injective (by simp only [toRoot_mul, mul_comm])
  left_distrib a b c := toRoot_injective (by simp only [toRoot_mul, toRoot_add, mul_add])
  right_distrib a b c := toRoot_injective (by simp only [toRoot_mul, toRoot_add, add_mul])
  zero_mul a := toRoot_injective (by simp only [toRoot_mul, toRoot_zero, zero_mul])
  mul_zero a := toRoot_injective (by simp only [toRoot_mul, toRoot_zero, mul_zero])
  nsmul := nsmulRec
  zsmul := zsmulRec
  sub_eq_add_neg a b := rfl

instance : Nontrivial (Elem ff) := ⟨⟨0, 1, fun h => by
  have := congrArg Subtype.val h
  rw [zero_val, one_val] at this
  exact absurd this (by decide)⟩⟩

instance : CharP (Elem ff) 2 := CharTwo.of_one_ne_zero_of_two_eq_zero one_ne_zero (by
  have : (2 : Elem ff) = 1 + 1 := by norm_num
  rw [this, add_self])

omit hff in
theorem exists_word (p : (ZMod 2)[X]) (n : Nat) (hn : n ≤ 64) (hp : p.degree < (n : ℕ)) :
    ∃ w : Word, toPoly w = p := by
  induction n generalizing p with
  | zero =>
    refine ⟨0#64, ?_⟩
    rw [toPoly_zero]; symm
    ext i
    exact (degree_lt_iff_coeff_zero _ _).1 hp i (Nat.zero_le _)
  | succ n ih =>
    have hc : p.coeff n = 0 ∨ p.coeff n = 1 := by
      generalize p.coeff n = c
      revert c; decide
    rcases hc with hc | hc
    · apply ih p (by omega)
      rw [degree_lt_iff_coeff_zero] at hp ⊢
      intro m hm
      rcases Nat.eq_or_lt_of_le hm with h | h
      · rw [← h]; exact hc
      · exact hp m h
    · obtain ⟨w, hw⟩ := ih (p - X ^ n) (by omega) (by
        rw [degree_lt_iff_coeff_zero] at hp ⊢
        intro m hm
        rw [coeff_sub, coeff_X_pow]
        rcases Nat.eq_or_lt_of_le hm with h | h
        · rw [← h, hc]; simp
        · rw [hp m h, if_neg (by omega)]; simp)
      refine ⟨w ^^^ twoPow n, ?_⟩
      rw [toPoly_xor, hw, toPoly_twoPow n (by omega)]; ring

theorem toRoot_surjective : Function.Surjective (toRoot (ff := ff)) := by
  intro y
  obtain ⟨p, rfl⟩ := AdjoinRoot.mk_surjective y
  have hne := hff.out.min.ne0
  have hd : (p % toPoly ff.minpoly).degree < (toPoly ff.minpoly).degree := EuclideanDomain.mod_lt p hne
  have he : (p % toPoly ff.minpoly).degree < (64 : ℕ) := by
    refine lt_trans hd ?_
    rw [hff.out.min.degree]
    have := hff.out.min.e16
    exact_mod_cast (show ff.degree < 64 by omega)
  obtain ⟨w, hw⟩ := exists_word _ 64 le_rfl he
  refine ⟨⟨w, ?_⟩, ?_⟩
  · rw [← degree_toPoly_lt_iff', hw, ← hff.out.min.degree]; exact hd
  · unfold toRoot; simp only [hw]; exact mk_mod _ _

/-- the element ring is GF(2)[X]/(minpoly) -/
noncomputable def ringEquiv : Elem ff ≃+* AdjoinRoot (toPoly ff.minpoly) :=
  { Equiv.ofBijective toRoot ⟨toRoot_injective, toRoot_surjective⟩ with
    map_mul' := toRoot_mul
    map_add' := toRoot_add }

variable [hirr : Fact (Irreducible (toPoly ff.minpoly))]

theorem gf2eInv_lt (a : Word) (ha : a.toNat < 2 ^ ff.degree) : (gf2eInv ff a).toNat < 2 ^ ff.degree ∧
    (a ≠ 0#64 → toPoly ff.minpoly ∣ toPoly (gf2eInv ff a) * toPoly a - 1) := by
  have hmin := hff.out.min
  by_cases h0 : a = 0#64
  · subst h0
    refine ⟨?_, fun h => absurd rfl h⟩
    have : gf2eInv ff 0#64 = 0#64 := by
      unfold gf2eInv gf2xInvmod
      rw [gf2xInvmodFuel_zero 66 (by omega) _ _ hmin.e1 (by have := hmin.e16; omega)
        (fun h => hmin.ne0 ((toPoly_eq_zero_iff _).2 h))]
      rfl
    rw [this]; simp
  · have hd : (toPoly a).degree < (toPoly ff.minpoly).degree := by
      rw [hmin.degree]; exact (degree_toPoly_lt_iff' _ _).2 ha
    have hcop : IsCoprime (toPoly a) (toPoly ff.minpoly) := by
      refine ((hirr.out.coprime_iff_not_dvd).2 ?_).symm
      intro hdvd
      exact h0 ((toPoly_eq_zero_iff a).1 (Polynomial.eq_zero_of_dvd_of_degree_lt hdvd hd))
    obtain ⟨h1, h2⟩ := gf2xInvmod_spec a ff.minpoly ff.degree hmin.e1 (by have := hmin.e16; omega) hmin.deg hd hcop
    exact ⟨(bitsLt_iff _ _).1 (natDegree_lt_bits _ _ h2), fun _ => h1⟩

/-- inversion is `gf2e_inv` -/
instance : Inv (Elem ff) := ⟨fun a => ⟨gf2eInv ff a.1, (gf2eInv_lt a.1 a.2).1⟩⟩

@[simp] theorem inv_val (a : Elem ff) : (a⁻¹).1 = gf2eInv ff a.1 := rfl

theorem mul_inv (a : Elem ff) (h : a ≠ 0) : a * a⁻¹ = 1 := by
  apply toRoot_injective
  rw [toRoot_mul, toRoot_one]
  unfold toRoot
  rw [← map_mul, ← map_one (AdjoinRoot.mk (toPoly ff.minpoly)), AdjoinRoot.mk_eq_mk]
  have := (gf2eInv_lt a.1 a.2).2 (fun h' => h (ext' h'))
  rw [inv_val, mul_comm]; exact this

theorem inv_zero' : (0 : Elem ff)⁻¹ = 0 := by
  apply ext'
  have hmin := hff.out.min
  rw [inv_val, zero_val]
  unfold gf2eInv gf2xInvmod
  rw [gf2xInvmodFuel_zero 66 (by omega) _ _ hmin.e1 (by have := hmin.e16; omega)
    (fun h => hmin.ne0 ((toPoly_eq_zero_iff _).2 h))]
  rfl

instance instField : Field (Elem ff) where
  inv := fun a => a⁻¹
  mul_inv_cancel := mul_inv
  inv_zero := inv_zero'
  nnqsmul := _
  nnqsmul_def := fun _ _ => rfl
  qsmul := _
  qsmul_def := fun _ _ => rfl

end Elem
end M4rie
