import Verif.Model.Combine
import Verif.Proofs.NjMul
import Verif.Props.NewtonJohn

/-!
# C84: adding rows of several matrices to a row
-/

namespace M4rie.Props
open M4rie M4rie.Spec

variable {ff : Gf2e} [IsField ff]

/-- `R` is `C` with `d j` added to the entries `(rc, j)`, `j < ncols`, and nothing else changed, if `d` vanishes beyond the columns of `C`. -/
def AddedToRow (R C : Mzed) (MC : Nat → Nat → Elem ff) (rc : Nat) (d : Nat → Elem ff) : Prop :=
  R.nrows = C.nrows ∧ R.ncols = C.ncols ∧ R.fid = C.fid ∧ ∃ MR, Rep R MR ∧ (∀ j, j < C.ncols → MR rc j = MC rc j + d j) ∧ (∀ i j, i ≠ rc → MR i j = MC i j) ∧
    ((∀ j, C.ncols ≤ j → d j = 0) → ∀ j, C.ncols ≤ j → MR rc j = MC rc j)

theorem addedToRow_of_pack (C : Mat ff) (rc : Nat) {Ts : Nat → Njt} {XTs : Nat → Mat ff} {n : Nat} (h : ∀ q, q < n → (Ts q).T = (XTs q).pack) (x : Nat → Nat) :
    AddedToRow (C.pack.withRow rc (fun b => if b < C.pack.width then C.pack.words rc b ^^^ xorTables Ts x b n else C.pack.words rc b)) C.pack C.e rc
      (fun j => ∑ q ∈ Finset.range n, (XTs q).e (x q) j) := by
  rw [addTables_pack C rc h x (fun b => b < C.pack.width)]
  refine ⟨rfl, rfl, rfl, _, pack_rep _, fun j hj => ?_, fun i j hi => ?_, fun hd j hj => ?_⟩
  · have hwid : j / (64 / degreeToW ff.degree) < C.pack.width := by
      unfold Mzed.width Mzed.bitCols
      rw [pack_w, pack_ncols, (okW_ff (ff := ff)).width]
      exact start_lt_width okW_ff _ _ hj
    exact if_pos ⟨rfl, hwid⟩
  · exact if_neg fun h => hi h.1
  · have h0 : ∑ q ∈ Finset.range n, (XTs q).e (x q) j = 0 := hd j hj
    show (if _ then _ else _) = _
    rw [h0, add_zero, ite_self]

section
variable {C : Mzed} {MC : Nat → Nat → Elem ff} (hC : Rep C MC)
include hC

/-- **C84** `mzed_combine4(C,rc,T0,r0,…,T3,r3)`: row `rc` of `C` becomes the sum of itself and the rows `r0`, …, `r3` of `T0`, …, `T3`; the other rows are unchanged. -/
theorem C84_combine4 {T0 T1 T2 T3 : Mzed} {M0 M1 M2 M3 : Nat → Nat → Elem ff} (h0 : Rep T0 M0) (h1 : Rep T1 M1) (h2 : Rep T2 M2) (h3 : Rep T3 M3) (rc r0 r1 r2 r3 : Nat) :
    AddedToRow (mzedCombine4 C rc T0 r0 T1 r1 T2 r2 T3 r3) C MC rc (fun j => M0 r0 j + M1 r1 j + M2 r2 j + M3 r3 j) := by
  let Ts : Nat → Njt := fun q => ⟨fun _ => 0, T0, match q with | 0 => T0 | 1 => T1 | 2 => T2 | _ => T3⟩
  let XTs : Nat → Mat ff := fun q => match q with
    | 0 => ⟨T0.nrows, T0.ncols, T0.fid, M0⟩ | 1 => ⟨T1.nrows, T1.ncols, T1.fid, M1⟩ | 2 => ⟨T2.nrows, T2.ncols, T2.fid, M2⟩ | _ => ⟨T3.nrows, T3.ncols, T3.fid, M3⟩
  let x : Nat → Nat := fun q => match q with | 0 => r0 | 1 => r1 | 2 => r2 | _ => r3
  have hT : ∀ q, q < 4 → (Ts q).T = (XTs q).pack := by
    intro q _
    match q with
    | 0 => exact h0.eq_pack'
    | 1 => exact h1.eq_pack'
    | 2 => exact h2.eq_pack'
    | _ + 3 => exact h3.eq_pack'
  have key := addedToRow_of_pack (⟨C.nrows, C.ncols, C.fid, MC⟩ : Mat ff) rc hT x
  rw [← hC.eq_pack'] at key
  have e1 : ∀ b, xorTables Ts x b 4 = ((T0.words r0 b ^^^ T1.words r1 b) ^^^ T2.words r2 b) ^^^ T3.words r3 b := by
    intro b
    show (((0#64 ^^^ T0.words r0 b) ^^^ T1.words r1 b) ^^^ T2.words r2 b) ^^^ T3.words r3 b = _
    rw [BitVec.zero_xor]
  have e2 : (fun j => ∑ q ∈ Finset.range 4, (XTs q).e (x q) j) = fun j => M0 r0 j + M1 r1 j + M2 r2 j + M3 r3 j := by
    funext j
    rw [Finset.sum_range_succ, Finset.sum_range_succ, Finset.sum_range_succ, Finset.sum_range_one]
    rfl
  rw [e2] at key
  simp only [e1] at key
  exact key

/-- **C84** `mzed_combine8(C,rc,T0,r0,…,T7,r7)` likewise. -/
theorem C84_combine8 {Ts : Nat → Njt} {MT : Nat → Nat → Nat → Elem ff} (hT : ∀ q, q < 8 → Rep (Ts q).T (MT q)) (rc : Nat) (x : Nat → Nat) :
    AddedToRow (mzedCombine8 C rc Ts x) C MC rc
      (fun j => MT 0 (x 0) j + MT 1 (x 1) j + MT 2 (x 2) j + MT 3 (x 3) j + MT 4 (x 4) j + MT 5 (x 5) j + MT 6 (x 6) j + MT 7 (x 7) j) := by
  have key := addedToRow_of_pack (⟨C.nrows, C.ncols, C.fid, MC⟩ : Mat ff) rc (Ts := Ts)
    (XTs := fun q => ⟨(Ts q).T.nrows, (Ts q).T.ncols, (Ts q).T.fid, MT q⟩) (n := 8) (fun q hq => (hT q hq).eq_pack') x
  rw [← hC.eq_pack'] at key
  have e2 : (fun j => ∑ q ∈ Finset.range 8, MT q (x q) j) =
      fun j => MT 0 (x 0) j + MT 1 (x 1) j + MT 2 (x 2) j + MT 3 (x 3) j + MT 4 (x 4) j + MT 5 (x 5) j + MT 6 (x 6) j + MT 7 (x 7) j := by
    funext j
    simp only [Finset.sum_range_succ, Finset.sum_range_zero, zero_add]
  rw [← e2]
  exact key

end

omit [IsField ff] in
/-- **C84** the same call once more restores `C`, whatever its words are (if `C` is none of `T0`, …, `T3`). -/
theorem C84_combine4_twice (C T0 T1 T2 T3 : Mzed) (rc r0 r1 r2 r3 : Nat) :
    mzedCombine4 (mzedCombine4 C rc T0 r0 T1 r1 T2 r2 T3 r3) rc T0 r0 T1 r1 T2 r2 T3 r3 = C := by
  have hw : ∀ A B C D X : Word, (X ^^^ (((A ^^^ B) ^^^ C) ^^^ D)) ^^^ (((A ^^^ B) ^^^ C) ^^^ D) = X := by
    intro A B C D X
    rw [BitVec.xor_assoc, BitVec.xor_self, BitVec.xor_zero]
  unfold mzedCombine4
  have : (setRow (setRow C.words rc fun b => if b < C.width then C.words rc b ^^^ (((T0.words r0 b ^^^ T1.words r1 b) ^^^ T2.words r2 b) ^^^ T3.words r3 b) else C.words rc b) rc fun b =>
      if b < C.width then (setRow C.words rc fun b => if b < C.width then C.words rc b ^^^ (((T0.words r0 b ^^^ T1.words r1 b) ^^^ T2.words r2 b) ^^^ T3.words r3 b) else C.words rc b) rc b ^^^
        (((T0.words r0 b ^^^ T1.words r1 b) ^^^ T2.words r2 b) ^^^ T3.words r3 b)
      else (setRow C.words rc fun b => if b < C.width then C.words rc b ^^^ (((T0.words r0 b ^^^ T1.words r1 b) ^^^ T2.words r2 b) ^^^ T3.words r3 b) else C.words rc b) rc b) = C.words := by
    funext i b
    unfold setRow
    by_cases hi : i = rc
    · subst hi
      simp only [if_true]
      split_ifs
      · exact hw _ _ _ _ _
      · rfl
    · simp only [if_neg hi]
  show ({ C with words := _ } : Mzed) = C
  exact congrArg (fun W => ({ C with words := W } : Mzed)) this

/-- the hypotheses of `C84_combine4` are met, and the row changes: over GF(2^8), 2 x 9 matrices, adding four rows with 1 in the columns 0, 1, 2 and 8 -/
example : ∃ (ff : Gf2e) (_ : IsField ff) (C T0 T1 T2 T3 : Mzed) (MC M0 M1 M2 M3 : Nat → Nat → Elem ff), Rep C MC ∧ Rep T0 M0 ∧ Rep T1 M1 ∧ Rep T2 M2 ∧ Rep T3 M3 ∧
    C.ncols = 9 ∧ (∀ j, 9 ≤ j → M0 1 j + M1 0 j + M2 1 j + M3 0 j = 0) ∧ M0 1 8 + M1 0 8 + M2 1 8 + M3 0 8 ≠ 0 := by
  obtain ⟨ff, hF, h8⟩ := exists_aes
  let X : Nat → Mat ff := fun k => ⟨2, 9, 0, fun _ j => if j = k then 1 else 0⟩
  refine ⟨ff, hF, (X 3).pack, (X 0).pack, (X 1).pack, (X 2).pack, (X 8).pack, _, _, _, _, _, pack_rep (X 3), pack_rep (X 0), pack_rep (X 1), pack_rep (X 2), pack_rep (X 8), rfl, ?_, ?_⟩
  · intro j hj
    show (if j = 0 then (1 : Elem ff) else 0) + (if j = 1 then 1 else 0) + (if j = 2 then 1 else 0) + (if j = 8 then 1 else 0) = 0
    rw [if_neg (by omega), if_neg (by omega), if_neg (by omega), if_neg (by omega), add_zero, add_zero, add_zero]
  · show (if 8 = 0 then (1 : Elem ff) else 0) + (if 8 = 1 then 1 else 0) + (if 8 = 2 then 1 else 0) + (if 8 = 8 then 1 else 0) ≠ 0
    rw [if_neg (by decide), if_neg (by decide), if_neg (by decide), if_pos rfl, zero_add, zero_add, zero_add]
    exact one_ne_zero

end M4rie.Props
