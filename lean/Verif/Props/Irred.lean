import Verif.Proofs.IrredAll
import Verif.Props.Field

/-!
# Property C09: the published tables of irreducible polynomials

The tables are finite, so the kernel evaluates a proved-sound irreducibility test (Ben-Or) on
every single entry; irreducibility itself is Mathlib's `Irreducible`, a statement about all
factorizations.
-/

namespace M4rie.Props
open Polynomial M4rie.Spec M4rie.BenOr

theorem toPoly_ofNat (n : Nat) (h : n < 2 ^ 64) : toPoly (BitVec.ofNat 64 n) = nPoly n := by
  ext i
  rw [toPoly_coeff, nPoly_coeff, BitVec.getLsbD_ofNat]
  by_cases hi : i < 64
  · simp [hi]
  · have : n.testBit i = false := Nat.testBit_lt_two_pow
      (lt_of_lt_of_le h (Nat.pow_le_pow_right (by norm_num) (by omega)))
    simp [hi, this]

theorem nPoly_bound {n d : Nat} (h0 : n ≠ 0) (h : (nPoly n).natDegree = d) (hd : d ≤ 16) : n < 2 ^ 64 := by
  rw [nPoly_natDegree n h0] at h
  have := Nat.lt_log2_self (n := n)
  refine lt_of_lt_of_le this (Nat.pow_le_pow_right (by norm_num) (by omega))

theorem irred_entry {d n : Nat} (hd : d ≤ 16) (h : check d n = true) :
    (toPoly (BitVec.ofNat 64 n)).natDegree = d ∧ Irreducible (toPoly (BitVec.ofNat 64 n)) := by
  obtain ⟨h1, h2⟩ := check_sound d n h
  have hn0 : n ≠ 0 := by rintro rfl; rw [nPoly_zero] at h2; exact not_irreducible_zero h2
  rw [toPoly_ofNat n (nPoly_bound hn0 h1 hd)]
  exact ⟨h1, h2⟩

/-- **C09** every entry of `irreducible_polynomials[d]` is irreducible of degree exactly `d`. -/
theorem C09_irreducible (d : Nat) (n : Nat) (h : n ∈ irredTable d) :
    (toPoly (BitVec.ofNat 64 n)).natDegree = d ∧ Irreducible (toPoly (BitVec.ofNat 64 n)) := by
  have key : ∀ (d : Nat) (l : List Nat), d ≤ 16 → l.all (check d) = true → n ∈ l →
      (toPoly (BitVec.ofNat 64 n)).natDegree = d ∧ Irreducible (toPoly (BitVec.ofNat 64 n)) := by
    intro d l hd hl hn
    exact irred_entry hd (List.all_eq_true.1 hl n hn)
  unfold irredTable at h
  split at h
  · -- degree 1: X and X+1
    have hn : n = 2 ∨ n = 3 := by
      have : n ∈ [2, 3] := h
      simpa using this
    have hdeg : (toPoly (BitVec.ofNat 64 n)).natDegree = 1 := by
      rw [← gf2xDeg_natDegree]
      rcases hn with rfl | rfl <;> decide
    refine ⟨hdeg, ?_⟩
    apply irreducible_of_degree_eq_one
    rw [degree_eq_natDegree (by intro h0; rw [h0] at hdeg; simp at hdeg), hdeg]; rfl
  · exact key 2 _ (by omega) irredAll2 h
  · exact key 3 _ (by omega) irredAll3 h
  · exact key 4 _ (by omega) irredAll4 h
  · exact key 5 _ (by omega) irredAll5 h
  · exact key 6 _ (by omega) irredAll6 h
  · exact key 7 _ (by omega) irredAll7 h
  · exact key 8 _ (by omega) irredAll8 h
  · exact key 9 _ (by omega) irredAll9 h
  · exact key 10 _ (by omega) irredAll10 h
  · exact key 11 _ (by omega) irredAll11 h
  · exact key 12 _ (by omega) irredAll12 h
  · exact key 13 _ (by omega) irredAll13 h
  · exact key 14 _ (by omega) irredAll14 h
  · exact key 15 _ (by omega) irredAll15 h
  · exact key 16 _ (by omega) irredAll16 h
  · simp at h

/-- **C09** the tables have no duplicates and the leading count is their length. -/
theorem C09_nodup_count (d : Nat) : (irredTable d).Nodup ∧ (irredTable d).length = irredCount d := by
  have key : ∀ l : List Nat, incr 1 l = true → l.Nodup := by
    intro l hl
    have := List.Pairwise.of_cons (incr_sound l 1 hl)
    exact this.imp (fun h => Nat.ne_of_lt h)
  unfold irredTable
  split
  · exact ⟨key _ irredIncr1, irredLen1⟩
  · exact ⟨key _ irredIncr2, irredLen2⟩
  · exact ⟨key _ irredIncr3, irredLen3⟩
  · exact ⟨key _ irredIncr4, irredLen4⟩
  · exact ⟨key _ irredIncr5, irredLen5⟩
  · exact ⟨key _ irredIncr6, irredLen6⟩
  · exact ⟨key _ irredIncr7, irredLen7⟩
  · exact ⟨key _ irredIncr8, irredLen8⟩
  · exact ⟨key _ irredIncr9, irredLen9⟩
  · exact ⟨key _ irredIncr10, irredLen10⟩
  · exact ⟨key _ irredIncr11, irredLen11⟩
  · exact ⟨key _ irredIncr12, irredLen12⟩
  · exact ⟨key _ irredIncr13, irredLen13⟩
  · exact ⟨key _ irredIncr14, irredLen14⟩
  · exact ⟨key _ irredIncr15, irredLen15⟩
  · exact ⟨key _ irredIncr16, irredLen16⟩
  · refine ⟨List.nodup_nil, ?_⟩
    unfold irredCount
    split <;> simp_all

-- non-vacuity: the AES polynomial is the first entry for degree 8
example : 0x11b ∈ irredTable 8 := by decide

theorem irreducible_aes : Irreducible (toPoly (0x11b#64)) := (C09_irreducible 8 0x11b (by decide)).2
theorem irreducible_16 : Irreducible (toPoly (0x1002b#64)) := (C09_irreducible 16 0x1002b (by decide)).2

/-- **C09** consequence: `gf2e_init` on any table entry of degree 1..16 yields a field. -/
theorem C09_init_field (d n : Nat) (h : n ∈ irredTable d) (hd : 1 ≤ d) (hd16 : d ≤ 16) :
    ∃ ff, gf2eInit (BitVec.ofNat 64 n) = some ff ∧ ff.degree = d ∧ FFOK ff ∧
      Irreducible (toPoly ff.minpoly) := by
  obtain ⟨h1, h2⟩ := C09_irreducible d n h
  obtain ⟨ff, e1, e2, e3, e4⟩ := gf2eInit_ok (f := BitVec.ofNat 64 n) (e := d) ⟨h1, hd, hd16⟩
  exact ⟨ff, e1, e2, e4, by rw [e3]; exact h2⟩

-- hypotheses of C04/C08 are met by the AES field
example : ∃ ff, gf2eInit 0x11b#64 = some ff ∧ SupportedMinpoly 0x11b#64 ∧
    Irreducible (toPoly (0x11b#64)) ∧ (0x53#64).toNat < 2 ^ ff.degree := by
  obtain ⟨ff, e1, e2, _, _⟩ := C09_init_field 8 0x11b (by decide) (by decide) (by decide)
  exact ⟨ff, e1, supported_of_deg (by decide) (by decide), irreducible_aes, by rw [e2]; decide⟩

end M4rie.Props
