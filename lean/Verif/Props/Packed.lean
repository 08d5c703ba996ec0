import Verif.Proofs.MulScalar
import Verif.Props.Irred

/-!
# Properties C11-C20, C42-C45: packed matrices

`Rep A M` (Spec/Rep.lean): the packed matrix `A` stores the field elements `M i j` at all rows `i`
and *all* positions `j`, including padding bits / surroundings of a window.  So every theorem
`Rep A M → Rep (op A) M'` says exactly which stored elements change, and that nothing else does.
In particular (C42) the stored numbers stay `< 2^e`.
-/

namespace M4rie.Props
open M4rie M4rie.Spec Polynomial

/-! ### a concrete field for the examples -/

/-- GF(2^8) with the AES polynomial -/
theorem isField_of_init {f : Word} {ff : Gf2e} (h2 : 2 ≤ gf2xDeg f) (h16 : gf2xDeg f ≤ 16)
    (hirr : Irreducible (toPoly f)) (hi : gf2eInit f = some ff) : IsField ff :=
  ⟨f, by rw [← gf2xDeg_natDegree]; exact h2, by rw [← gf2xDeg_natDegree]; exact h16, hirr, hi⟩

/-- there is a field object for the AES polynomial (degree 8) and one of degree 16 -/
theorem exists_aes : ∃ ff, IsField ff ∧ ff.degree = 8 := by
  obtain ⟨ff, h1, h2, -⟩ := C05_red_table 0x11b#64 (supported_of_deg (by decide) (by decide))
  exact ⟨ff, isField_of_init (by decide) (by decide) irreducible_aes h1, by
    rw [h2, ← gf2xDeg_natDegree]; decide⟩

theorem exists_deg16 : ∃ ff, IsField ff ∧ ff.degree = 16 := by
  obtain ⟨ff, h1, h2, -⟩ := C05_red_table 0x1002b#64 (supported_of_deg (by decide) (by decide))
  exact ⟨ff, isField_of_init (by decide) (by decide) irreducible_16 h1, by
    rw [h2, ← gf2xDeg_natDegree]; decide⟩

variable {ff : Gf2e} [IsField ff]

/-- any matrix of field elements can be stored: `Rep` is satisfiable for every `M` whose rows are
given by words; here for the zero matrix of any size. -/
theorem rep_init (fid m n : Nat) : Rep (mzedInit ff fid m n) (fun _ _ => (0 : Elem ff)) :=
  ⟨rfl, rfl, fun i j => by simp [entryOf, mzedInit]⟩

/-! ### C11: the 16-bit table -/

/-- `gf2e_mul(ff,a,b)` stays inside the tables it reads: for `e ≤ 8` the product table has `2^e` columns, for
`e > 8` the product of the two polynomials must have degree below `2e`. -/
def ProductReadable (ff : Gf2e) (a b : Word) : Prop :=
  if ff.degree ≤ 8 then b.toNat < 2 ^ ff.degree else (toPoly a * toPoly b).degree < ((2 * ff.degree : Nat) : WithBot Nat)

/-- **C11**, exact: for every degree, every scalar and every 16-bit index, the entry is computed
without reading outside a table exactly when all its lanes have readable products, and then it multiplies every
`w`-bit lane (canonical or not) by `a` modulo the minimal polynomial. -/
theorem C11_t16 (a : Word) (ha : a.toNat < 2 ^ ff.degree) (i : Nat) (hi : i < 2 ^ 16) :
    ((∀ k, k < 16 / degreeToW ff.degree →
        ProductReadable ff a (laneVal (degreeToW ff.degree) (BitVec.ofNat 64 i) k)) →
      ∃ r, t16? ff a i = some r ∧ ∀ k, k < 64 / degreeToW ff.degree →
        toPoly (laneVal (degreeToW ff.degree) r k) =
          (toPoly a * toPoly (laneVal (degreeToW ff.degree) (BitVec.ofNat 64 i) k)) % toPoly ff.minpoly) ∧
    ((∃ k, k < 16 / degreeToW ff.degree ∧
        ¬ ProductReadable ff a (laneVal (degreeToW ff.degree) (BitVec.ofNat 64 i) k)) → t16? ff a i = none) := by
  have hff : FFOK ff := Fact.out
  have hok := (degreeToW_ok (IsField.two_le (ff := ff)) hff.min.e16).1
  have hle := (degreeToW_ok (IsField.two_le (ff := ff)) hff.min.e16).2
  have hw : degreeToW? ff.degree = some (degreeToW ff.degree) := by
    have h2 := IsField.two_le (ff := ff)
    have h16 := hff.min.e16
    generalize ff.degree = e at *
    interval_cases e <;> rfl
  have hw16 : degreeToW ff.degree ≤ 16 := by rcases hok with h | h | h | h <;> omega
  have hl : ∀ k, (laneVal (degreeToW ff.degree) (BitVec.ofNat 64 i) k).toNat < 2 ^ 16 := fun k =>
    lt_of_lt_of_le (laneVal_lt (degreeToW ff.degree) (BitVec.ofNat 64 i) k (by have := hok.le; omega))
      (Nat.pow_le_pow_right (by norm_num) hw16)
  constructor
  · intro hr
    have hlane : ∀ k, ∃ v, k < 16 / degreeToW ff.degree →
        gf2eMul? ff a (laneVal (degreeToW ff.degree) (BitVec.ofNat 64 i) k) = some v ∧
        v.toNat < 2 ^ ff.degree ∧
        toPoly v = (toPoly a * toPoly (laneVal (degreeToW ff.degree) (BitVec.ofNat 64 i) k)) % toPoly ff.minpoly := by
      intro k
      by_cases hk : k < 16 / degreeToW ff.degree
      · obtain ⟨v, hv⟩ := gf2eMul?_reads hff a _ ha (hl k) (hr k hk)
        exact ⟨v, fun _ => hv⟩
      · exact ⟨0, fun h => absurd h hk⟩
    choose g hg using hlane
    obtain ⟨r, h1, h2⟩ := t16Entry_spec (ff := ff) hok a (BitVec.ofNat 64 i) g (16 / degreeToW ff.degree)
      (Nat.div_le_div_right (by norm_num)) (fun k hk => ⟨(hg k hk).1,
        lt_of_lt_of_le (hg k hk).2.1 (Nat.pow_le_pow_right (by norm_num) hle)⟩)
    refine ⟨r, by unfold t16?; rw [hw]; exact h1, ?_⟩
    intro k hk
    rw [h2 k hk]
    by_cases hk' : k < 16 / degreeToW ff.degree
    · rw [if_pos hk', (hg k hk').2.2]
    · rw [if_neg hk']
      have hz : laneVal (degreeToW ff.degree) (BitVec.ofNat 64 i) k = 0#64 := by
        apply word_ext
        intro q _
        rw [getLsbD_lane _ _ _ _ (by have := hok.le; omega)]
        by_cases hq : q < degreeToW ff.degree
        · have h16 : 16 ≤ k * degreeToW ff.degree + q := by
            have := hok.n16
            have h5 : 16 / degreeToW ff.degree * degreeToW ff.degree ≤ k * degreeToW ff.degree :=
              Nat.mul_le_mul_right _ (by omega)
            omega
          rw [getLsbD_eq_false_of_lt (w := 16) _ h16]
          · simp
          · rw [BitVec.toNat_ofNat]
            exact lt_of_le_of_lt (Nat.mod_le _ _) hi
        · simp [hq]
      rw [hz]; simp
  · rintro ⟨k, hk, hr⟩
    unfold t16?
    rw [hw]
    exact t16Entry_none hok a _ k (gf2eMul?_not_reads hff a _ ha (hl k) hr) _ hk

/-- **C11**: for degrees 2, 4, 8, 15, 16 that covers *every* scalar and *every* 16-bit index. -/
theorem C11_t16_all_indices (hdeg : ff.degree = 2 ∨ ff.degree = 4 ∨ ff.degree = 8 ∨ ff.degree = 15 ∨ ff.degree = 16)
    (a : Word) (ha : a.toNat < 2 ^ ff.degree) (i : Nat) (hi : i < 2 ^ 16) :
    ∃ r, t16? ff a i = some r ∧ ∀ k, k < 64 / degreeToW ff.degree →
      toPoly (laneVal (degreeToW ff.degree) r k) =
        (toPoly a * toPoly (laneVal (degreeToW ff.degree) (BitVec.ofNat 64 i) k)) % toPoly ff.minpoly := by
  have hff : FFOK ff := Fact.out
  have hok := (degreeToW_ok (IsField.two_le (ff := ff)) hff.min.e16).1
  refine (C11_t16 a ha i hi).1 (fun k _ => ?_)
  have hl := laneVal_lt (degreeToW ff.degree) (BitVec.ofNat 64 i) k (by have := hok.le; omega)
  generalize laneVal (degreeToW ff.degree) (BitVec.ofNat 64 i) k = b at *
  unfold ProductReadable
  split
  · rename_i h8
    have e : degreeToW ff.degree = ff.degree := by
      rcases hdeg with h | h | h | h | h <;> first | omega | (rw [h]; rfl)
    rwa [e] at hl
  · rename_i h8
    have ha' := (degree_toPoly_lt_iff' a _).2 ha
    have hb' := (degree_toPoly_lt_iff' b _).2 hl
    have hw1 : degreeToW ff.degree ≤ ff.degree + 1 := by
      rcases hdeg with h | h | h | h | h <;> rw [h] <;> decide
    by_cases ha0 : toPoly a = 0
    · rw [ha0, zero_mul, degree_zero, bot_lt_iff_ne_bot]; exact WithBot.coe_ne_bot
    by_cases hb0 : toPoly b = 0
    · rw [hb0, mul_zero, degree_zero, bot_lt_iff_ne_bot]; exact WithBot.coe_ne_bot
    rw [degree_eq_natDegree (mul_ne_zero ha0 hb0), natDegree_mul ha0 hb0]
    rw [degree_eq_natDegree ha0, Nat.cast_lt] at ha'
    rw [degree_eq_natDegree hb0, Nat.cast_lt] at hb'
    rw [Nat.cast_lt]; omega

/-- **C11** for every supported degree, on indices all of whose lanes are field elements. -/
theorem C11_t16_canonical (a : Elem ff) (i : Nat)
    (hlanes : ∀ k, (laneVal (degreeToW ff.degree) (BitVec.ofNat 64 i) k).toNat < 2 ^ ff.degree) :
    ∃ r, t16? ff a.1 i = some r ∧ ∀ k, k < 64 / degreeToW ff.degree →
      laneVal (degreeToW ff.degree) r k =
        if k < 16 / degreeToW ff.degree then gf2eMul ff a.1 (laneVal (degreeToW ff.degree) (BitVec.ofNat 64 i) k)
        else 0#64 := by
  have hff : FFOK ff := Fact.out
  have hok := (degreeToW_ok (IsField.two_le (ff := ff)) hff.min.e16).1
  have hle := (degreeToW_ok (IsField.two_le (ff := ff)) hff.min.e16).2
  have hw : degreeToW? ff.degree = some (degreeToW ff.degree) := by
    have h2 := IsField.two_le (ff := ff)
    have h16 := hff.min.e16
    generalize ff.degree = e at *
    interval_cases e <;> rfl
  obtain ⟨r, h1, h2⟩ := t16Entry_spec (ff := ff) hok a.1 (BitVec.ofNat 64 i)
    (fun k => gf2eMul ff a.1 (laneVal (degreeToW ff.degree) (BitVec.ofNat 64 i) k)) (16 / degreeToW ff.degree)
    (Nat.div_le_div_right (by norm_num)) (fun k _ => by
      obtain ⟨h1, h2, _⟩ := gf2eMul_spec hff a.1 _ a.2 (hlanes k)
      exact ⟨h1, lt_of_lt_of_le h2 (Nat.pow_le_pow_right (by norm_num) hle)⟩)
  exact ⟨r, by unfold t16?; rw [hw]; exact h1, h2⟩

/-- **C11 violated**: for degrees 3, 5, 6, 7 and *every* `a` the construction of the table reads
`mul[a][2^e]`, past the end of the row. -/
theorem C11_violation_small (hdeg : ff.degree = 3 ∨ ff.degree = 5 ∨ ff.degree = 6 ∨ ff.degree = 7) (a : Word) :
    2 ^ ff.degree < 2 ^ 16 ∧ t16? ff a (2 ^ ff.degree) = none := by
  have hff : FFOK ff := Fact.out
  have hok := (degreeToW_ok (IsField.two_le (ff := ff)) hff.min.e16).1
  have hw : degreeToW? ff.degree = some (degreeToW ff.degree) := by
    rcases hdeg with h | h | h | h <;> rw [h] <;> rfl
  have hl0 : laneVal (degreeToW ff.degree) (BitVec.ofNat 64 (2 ^ ff.degree)) 0 = BitVec.ofNat 64 (2 ^ ff.degree) := by
    rcases hdeg with h | h | h | h <;> rw [h] <;> decide
  have hlt : ff.degree < 16 := by omega
  refine ⟨Nat.pow_lt_pow_right (by norm_num) hlt, ?_⟩
  unfold t16?
  rw [hw]
  apply t16Entry_none hok a _ 0
  · rw [hl0]
    unfold gf2eMul?
    rw [hff.tab, if_pos (by omega)]
    unfold gf2eMulTable?
    apply if_neg
    rintro ⟨_, h⟩
    rw [BitVec.toNat_ofNat, Nat.mod_eq_of_lt (Nat.pow_lt_pow_right (by norm_num) (by omega))] at h
    omega
  · rcases hdeg with h | h | h | h <;> rw [h] <;> decide

/-- **C11 violated** for degrees 9..14: with `a = X^(e-1)` the entry for index `0x8000` reads past the
end of the reduction table. -/
theorem C11_violation_large (h9 : 9 ≤ ff.degree) (h14 : ff.degree ≤ 14) :
    t16? ff (twoPow (ff.degree - 1)) 0x8000 = none := by
  have hff : FFOK ff := Fact.out
  have hok := (degreeToW_ok (IsField.two_le (ff := ff)) hff.min.e16).1
  have hw : degreeToW? ff.degree = some (degreeToW ff.degree) := by
    generalize ff.degree = e at *
    interval_cases e <;> rfl
  unfold t16?
  rw [hw]
  apply t16Entry_none hok _ _ 0
  · unfold gf2eMul?
    rw [hff.tab, if_neg (by omega)]
    unfold gf2eMulArith?
    have key : ∀ e, 9 ≤ e → e ≤ 14 → ∃ res, gf2xMul? (twoPow (e - 1)) (laneVal (degreeToW e) (BitVec.ofNat 64 0x8000) 0) e = some res ∧
        ¬ (res >>> e).toNat < 2 ^ e := by
      intro e h1 h2
      interval_cases e <;> exact ⟨_, rfl, by decide⟩
    obtain ⟨res, e1, e2⟩ := key _ h9 h14
    simp only [e1, Option.bind_some, if_neg e2]
  · generalize ff.degree = e at *
    interval_cases e <;> decide

-- non-vacuity: the AES field and a field of degree 16 are covered
example : ∃ ff, IsField ff ∧ (ff.degree = 2 ∨ ff.degree = 4 ∨ ff.degree = 8 ∨ ff.degree = 15 ∨ ff.degree = 16) := by
  obtain ⟨ff, h, hd⟩ := exists_aes; exact ⟨ff, h, by omega⟩

/-! ### C12: element access -/

/-- **C12** reading returns the stored element. -/
theorem C12_read {A : Mzed} {M : Nat → Nat → Elem ff} (h : Rep A M) (i j : Nat) :
    mzedReadElem A i j = (M i j).1 := h.read i j

/-- **C12** writing changes exactly one element. -/
theorem C12_write {A : Mzed} {M : Nat → Nat → Elem ff} (h : Rep A M) (r c : Nat) (x : Elem ff) :
    Rep (mzedWriteElem A r c x.1) (fun i j => if i = r ∧ j = c then x else M i j) := h.writeElem r c x

/-- **C12** adding changes exactly one element. -/
theorem C12_add {A : Mzed} {M : Nat → Nat → Elem ff} (h : Rep A M) (r c : Nat) (x : Elem ff) :
    Rep (mzedAddElem A r c x.1) (fun i j => if i = r ∧ j = c then M i j + x else M i j) := h.addElem r c x

/-- **C12** "nothing else changes" is meant for the whole memory: the stored elements at all
positions determine every bit. -/
theorem C12_entries_determine {A B : Mzed} {M : Nat → Nat → Elem ff} (hA : Rep A M) (hB : Rep B M) : A.words = B.words :=
  entries_determine hA.wf.okW (fun i j => by rw [hA.entry, hA.wEq, ← hB.wEq, hB.entry])

/-- **C12** write-then-read and independence of positions. -/
theorem C12_read_write {A : Mzed} {M : Nat → Nat → Elem ff} (h : Rep A M) (r c i j : Nat) (x : Elem ff) :
    mzedReadElem (mzedWriteElem A r c x.1) i j = if i = r ∧ j = c then x.1 else mzedReadElem A i j := by
  rw [(h.writeElem r c x).read, h.read]; split_ifs <;> rfl

/-! ### C13-C16: row and column operations -/

/-- **C13** -/
theorem C13_add_row {A B : Mzed} {M N : Nat → Nat → Elem ff} (h : Rep A M) (hB : Rep B N) (ar br s : Nat)
    (hs : s < A.ncols) :
    Rep (mzedAddRow A ar B br s) (fun i j => if i = ar ∧ s ≤ j ∧ j < A.ncols then M i j + N br j else M i j) :=
  h.addRow hB ar br s hs

/-- **C14** -/
theorem C14_add_multiple_of_row {A B : Mzed} {M N : Nat → Nat → Elem ff} (h : Rep A M) (hB : Rep B N) (ar br s : Nat)
    (hs : s < A.ncols) (x : Elem ff) :
    Rep (mzedAddMultipleOfRow A ar B br x.1 s)
      (fun i j => if i = ar ∧ s ≤ j ∧ j < A.ncols then M i j + x * N br j else M i j) :=
  h.addMultipleOfRow hB ar br s hs x

/-- **C15** -/
theorem C15_rescale_row {A : Mzed} {M : Nat → Nat → Elem ff} (h : Rep A M) (r s : Nat) (hs : s < A.ncols) (x : Elem ff) :
    Rep (mzedRescaleRow A r s x.1) (fun i j => if i = r ∧ s ≤ j ∧ j < A.ncols then x * M i j else M i j) :=
  h.rescaleRow r s hs x

/-- **C16** row swap -/
theorem C16_row_swap {A : Mzed} {M : Nat → Nat → Elem ff} (h : Rep A M) (a b : Nat) :
    Rep (mzedRowSwap A a b) (fun i j => if j < A.ncols then M (Equiv.swap a b i) j else M i j) := by
  convert h.rowSwap a b using 3 with i j
  apply if_congr Iff.rfl _ rfl
  rw [Equiv.swap_apply_def]; split_ifs <;> rfl

/-- **C16** row copy -/
theorem C16_copy_row {A B : Mzed} {M N : Nat → Nat → Elem ff} (h : Rep B N) (hA : Rep A M) (r s : Nat) :
    Rep (mzedCopyRow B r A s) (fun i j => if i = r ∧ j < A.ncols then M s j else N i j) := h.copyRow hA r s

/-- **C16** column swap -/
theorem C16_col_swap {A : Mzed} {M : Nat → Nat → Elem ff} (h : Rep A M) (a b : Nat) :
    Rep (mzedColSwap A a b) (fun i j => if i < A.nrows then M i (Equiv.swap a b j) else M i j) := by
  convert h.colSwap a b using 3 with i j
  apply if_congr Iff.rfl _ rfl
  rw [Equiv.swap_apply_def]; split_ifs <;> rfl

/-- **C16** column swap in a row range (the code swaps only `e` of the `w` bit columns) -/
theorem C16_col_swap_in_rows {A : Mzed} {M : Nat → Nat → Elem ff} (h : Rep A M) (a b start stop : Nat) :
    Rep (mzedColSwapInRows A a b start stop)
      (fun i j => if start ≤ i ∧ i < stop then M i (Equiv.swap a b j) else M i j) := by
  convert h.colSwapInRows a b start stop using 3 with i j
  apply if_congr Iff.rfl _ rfl
  rw [Equiv.swap_apply_def]; split_ifs <;> rfl

theorem colSwap_dim (A : Mzed) (a b : Nat) : SameDim (mzedColSwap A a b) A := by
  unfold mzedColSwap; rw [colSwap_words']; exact ⟨rfl, rfl, rfl⟩

/-- **C16** swapping twice restores the memory exactly. -/
theorem C16_swap_twice {A : Mzed} {M : Nat → Nat → Elem ff} (h : Rep A M) (a b start stop : Nat) :
    (mzedRowSwap (mzedRowSwap A a b) a b).words = A.words ∧
    (mzedColSwap (mzedColSwap A a b) a b).words = A.words ∧
    (mzedColSwapInRows (mzedColSwapInRows A a b start stop) a b start stop).words = A.words := by
  refine ⟨C12_entries_determine (M := M) ?_ h, C12_entries_determine (M := M) ?_ h, C12_entries_determine (M := M) ?_ h⟩
  · convert C16_row_swap (C16_row_swap h a b) a b using 3 with i j
    show M i j = if j < A.ncols then _ else _
    split_ifs <;> simp
  · convert C16_col_swap (C16_col_swap h a b) a b using 3 with i j
    rw [(colSwap_dim A a b).nrows]
    split_ifs <;> simp
  · convert C16_col_swap_in_rows (C16_col_swap_in_rows h a b start stop) a b start stop using 3 with i j
    split_ifs <;> simp

/-- **C16** row addition -/
theorem C16_row_add {A : Mzed} {M : Nat → Nat → Elem ff} (h : Rep A M) (s d : Nat) :
    Rep (mzedRowAdd A s d) (fun i j => if i = d ∧ j < A.ncols then M d j + M s j else M i j) := h.rowAdd s d

/-! ### C17: addition -/

/-- **C17** entrywise sum; `C` may be the same matrix as `A` or `B`. -/
theorem C17_add {A B C : Mzed} {MA MB MC : Nat → Nat → Elem ff} (hA : Rep A MA) (hB : Rep B MB) (hC : Rep C MC)
    (hd : SameDim B A) (hd' : SameDim C A) :
    ∃ R, mzedAdd? C A B = some R ∧ SameDim R A ∧
      Rep R (fun i j => if i < A.nrows ∧ j < A.ncols then MA i j + MB i j else MC i j) := by
  unfold mzedAdd?
  rw [if_pos ⟨hd.nrows.symm, hd.ncols.symm, hd.fid.symm, hd'.fid, hd'.nrows, hd'.ncols⟩]
  refine ⟨_, rfl, ⟨hd'.1, hd'.2, hd'.3⟩, hC.setWords _ ?_⟩
  intro i j
  unfold Mzed.bitCols
  have hw : C.w = A.w := by rw [hC.wEq, hA.wEq]
  have hw' : B.w = A.w := by rw [hB.wEq, hA.wEq]
  rw [hw, mzdAdd_entry hA.wf.okW, hA.entry, ← hw', hB.entry, hw', ← hw, hC.entry]
  split_ifs <;> rfl

/-- **C17** `A + A = 0`. -/
theorem C17_add_self {A C : Mzed} {MA MC : Nat → Nat → Elem ff} (hA : Rep A MA) (hC : Rep C MC) (hd' : SameDim C A) :
    ∃ R, mzedAdd? C A A = some R ∧ Rep R (fun i j => if i < A.nrows ∧ j < A.ncols then 0 else MC i j) := by
  obtain ⟨R, h1, _, h2⟩ := C17_add hA hA hC (SameDim.refl A) hd'
  refine ⟨R, h1, ?_⟩
  convert h2 using 3 with i j
  rw [Elem.add_self]

/-- **C17** mismatching dimensions or fields die. -/
theorem C17_add_dies (A B C : Mzed) (h : ¬ (SameDim B A ∧ SameDim C A)) : mzedAdd? C A B = none := by
  unfold mzedAdd?
  rw [if_neg]
  rintro ⟨h1, h2, h3, h4, h5, h6⟩
  exact h ⟨⟨h1.symm, h2.symm, h3.symm⟩, ⟨h5, h6, h4⟩⟩

/-! ### C18: scalar multiplication -/

theorem copy_rep {B C : Mzed} {MB MC : Nat → Nat → Elem ff} (hB : Rep B MB) (hC : Rep C MC) (hd : SameDim C B) :
    ∃ R, mzedCopy? C B = some R ∧ SameDim R B ∧
      Rep R (fun i j => if i < B.nrows ∧ j < B.ncols then MB i j else MC i j) := by
  unfold mzedCopy?
  rw [if_pos ⟨hd.fid, hd.nrows, hd.ncols⟩]
  refine ⟨_, rfl, ⟨hd.1, hd.2, hd.3⟩, hC.setWords _ ?_⟩
  intro i j
  unfold Mzed.bitCols
  have hw : C.w = B.w := by rw [hC.wEq, hB.wEq]
  rw [hw, mzdCopy_entry hB.wf.okW, hB.entry, ← hw, hC.entry]
  split_ifs <;> rfl

/-- **C18** both strategies compute `a*B`, for every size, except for degrees 3, 5, 6, 7 with at least 2^17
entries, where the table construction reads out of bounds (`C18_violation`). -/
theorem C18_mul_scalar {B C : Mzed} {MB MC : Nat → Nat → Elem ff} (hB : Rep B MB) (hC : Rep C MC)
    (hd : SameDim C B) (hn : 0 < B.ncols) (a : Elem ff)
    (hdeg : (ff.degree ≠ 3 ∧ ff.degree ≠ 5 ∧ ff.degree ≠ 6 ∧ ff.degree ≠ 7) ∨ B.nrows * B.ncols < 2 ^ 17) :
    ∃ R, mzedMulScalar? C a.1 B = some R ∧ SameDim R B ∧
      Rep R (fun i j => if i < B.nrows ∧ j < B.ncols then a * MB i j else MC i j) := by
  unfold mzedMulScalar?
  by_cases hdir : B.ff.degree > 8 ∨ B.nrows * B.ncols < 2 ^ 17
  · rw [if_pos hdir]
    obtain ⟨R, h1, h2, h3⟩ := copy_rep hB hC hd
    rw [h1]
    refine ⟨_, rfl, ?_⟩
    have := forN_inv (fun n (E : Mzed) => SameDim E B ∧ Rep E (fun i j => if i < B.nrows ∧ j < B.ncols then
        (if i < n then a * MB i j else MB i j) else MC i j)) (fun i C => mzedRescaleRow C i 0 a.1) R B.nrows
      ⟨h2, by simpa using h3⟩ (by
        intro k E hk ⟨hd, hE⟩
        refine ⟨(rescaleRow_dim E hE.wf.okW k 0 a.1).trans hd, ?_⟩
        convert hE.rescaleRow k 0 (by rw [hd.ncols]; exact hn) a using 3 with i j
        rw [hd.ncols]
        by_cases h1 : i < B.nrows ∧ j < B.ncols
        · simp only [h1, and_self, if_true, true_and, Nat.zero_le, and_true]
          by_cases hik : i = k
          · subst hik; simp
          · have : i < k ↔ i < k + 1 := by omega
            simp [hik, this]
        · simp only [h1, if_false]
          rw [if_neg (by omega)])
    refine ⟨this.1, ?_⟩
    convert this.2 using 3 with i j
    by_cases h1 : i < B.nrows ∧ j < B.ncols
    · simp [h1]
    · simp [h1]
  · rw [if_neg hdir]
    have hff : FFOK ff := Fact.out
    have hBf := hB.ffEq
    have hdeg' : ff.degree = 2 ∨ ff.degree = 4 ∨ ff.degree = 8 := by
      have h2 := IsField.two_le (ff := ff)
      rw [hBf] at hdir
      omega
    have hwe : degreeToW ff.degree = ff.degree := by rcases hdeg' with h | h | h <;> rw [h] <;> rfl
    have hok := (degreeToW_ok (IsField.two_le (ff := ff)) hff.min.e16).1
    have hent : ∀ i, ∃ r, t16? ff a.1 i = some r ∧ ∀ k, k < 64 / degreeToW ff.degree →
      laneVal (degreeToW ff.degree) r k =
        if k < 16 / degreeToW ff.degree then gf2eMul ff a.1 (laneVal (degreeToW ff.degree) (BitVec.ofNat 64 i) k)
        else 0#64 := fun i => C11_t16_canonical a i (fun k => by
          have := laneVal_lt (degreeToW ff.degree) (BitVec.ofNat 64 i) k (by have := hok.le; omega)
          rwa [hwe] at this ⊢)
    rw [if_pos]
    · refine ⟨_, rfl, ?_⟩
      have hinv := forN_inv (fun n (E : Mzed) => SameDim E B ∧ Rep E (fun i j => if i < n ∧ j < B.ncols then
          a * MB i j else MC i j)) (fun i (C : Mzed) =>
            { C with words := setRow C.words i (scalarRow (fun i => (t16? B.ff a.1 i).getD 0#64) C.width B.highBitmask (B.words i) (C.words i)) })
          C C.nrows ⟨hd, by simpa using hC⟩ (by
        intro k E hk ⟨hdE, hE⟩
        refine ⟨⟨hdE.1, hdE.2, hdE.3⟩, hE.setWords _ ?_⟩
        intro i j
        have hEw : E.w = B.w := by rw [hE.wEq, hB.wEq]
        have hwB : B.w = degreeToW ff.degree := hB.wEq
        have hpos := hok.lpos
        rw [hE.wEq, setRow_entry hok]
        by_cases hik : i = k
        · subst hik
          rw [if_pos rfl]
          have hwidth : E.width = (degreeToW ff.degree * B.ncols + 63) / 64 := by
            unfold Mzed.width Mzed.bitCols; rw [hE.wEq, hdE.ncols]
          have hhi : B.highBitmask = leftBitmask (degreeToW ff.degree * B.ncols % 64) := by
            unfold Mzed.highBitmask Mzed.bitCols; rw [hB.wEq]
          have hsw : ∀ tmp : Word, ∀ k, k < 64 / degreeToW ff.degree →
              laneVal (degreeToW ff.degree) (scalarWord (fun i => (t16? B.ff a.1 i).getD 0#64) tmp) k =
                gf2eMul ff a.1 (laneVal (degreeToW ff.degree) tmp k) := by
            intro tmp k hk
            apply scalarWord_lane hok _ _ _ _ k hk
            intro i _ _ k hk
            obtain ⟨r, h1, h2⟩ := hent i.toNat
            simp only [hBf, h1, Option.getD_some]
            rw [h2 k hk]
            simp
          have hg0 : gf2eMul ff a.1 0#64 = 0#64 := by
            have := mul_zero a
            exact congrArg Subtype.val this
          have := scalarRow_lane hok (fun i => (t16? B.ff a.1 i).getD 0#64) (gf2eMul ff a.1) B.ncols hn (B.words i) (E.words i)
            hg0 (fun tmp _ k hk => hsw tmp k hk) (j / (64 / degreeToW ff.degree)) (j % (64 / degreeToW ff.degree)) (Nat.mod_lt _ hpos)
          rw [pos_split hpos] at this
          rw [hwidth, hhi, this]
          have hb := hB.entry i j
          have he := hE.entry i j
          rw [hE.wEq] at he
          rw [hB.wEq] at hb
          unfold entryOf at hb he
          rw [hb, he]
          by_cases hj : j < B.ncols
          · simp [hj]
          · simp [hj]
        · rw [if_neg hik, ← hE.wEq, hE.entry]
          congr 2
          apply propext
          omega)
      refine ⟨hinv.1, ?_⟩
      convert hinv.2 using 3 with i j
      rw [hd.nrows]
    · rw [List.all_eq_true]
      intro i _
      obtain ⟨r, h1, _⟩ := hent i
      rw [hBf, h1]; rfl

/-- **C18 violated**: degrees 3, 5, 6, 7 with at least `2^17` entries, every scalar. -/
theorem C18_violation {B C : Mzed} (hf : B.ff = ff)
    (hdeg : ff.degree = 3 ∨ ff.degree = 5 ∨ ff.degree = 6 ∨ ff.degree = 7) (hsize : 2 ^ 17 ≤ B.nrows * B.ncols) (a : Word) :
    mzedMulScalar? C a B = none := by
  unfold mzedMulScalar?
  rw [if_neg (by rw [hf]; omega), if_neg]
  intro h
  rw [List.all_eq_true] at h
  obtain ⟨h1, h2⟩ := C11_violation_small (ff := ff) hdeg a
  have := h (2 ^ ff.degree) (List.mem_range.2 h1)
  rw [hf, h2] at this
  simp at this

/-- **C18**, exact: the call is defined except for the sizes and degrees above, and whatever it
returns is `a*B`. -/
theorem C18_exact {B C : Mzed} {MB MC : Nat → Nat → Elem ff} (hB : Rep B MB) (hC : Rep C MC)
    (hd : SameDim C B) (hn : 0 < B.ncols) (a : Elem ff) :
    (mzedMulScalar? C a.1 B = none ↔
      (ff.degree = 3 ∨ ff.degree = 5 ∨ ff.degree = 6 ∨ ff.degree = 7) ∧ 2 ^ 17 ≤ B.nrows * B.ncols) ∧
    ∀ R, mzedMulScalar? C a.1 B = some R →
      SameDim R B ∧ Rep R (fun i j => if i < B.nrows ∧ j < B.ncols then a * MB i j else MC i j) := by
  by_cases hbad : (ff.degree = 3 ∨ ff.degree = 5 ∨ ff.degree = 6 ∨ ff.degree = 7) ∧ 2 ^ 17 ≤ B.nrows * B.ncols
  · have := C18_violation (C := C) hB.ffEq hbad.1 hbad.2 a.1
    exact ⟨⟨fun _ => hbad, fun _ => this⟩, fun R h => by rw [this] at h; cases h⟩
  · obtain ⟨R, h1, h2, h3⟩ := C18_mul_scalar hB hC hd hn a (by omega)
    refine ⟨⟨fun h => ?_, fun h => absurd h hbad⟩, fun R' h => ?_⟩
    · rw [h1] at h; cases h
    · rw [h1] at h
      cases h
      exact ⟨h2, h3⟩

-- a matrix large enough for the table strategy, over the AES field
example : ∃ ff, ∃ _ : IsField ff, ∃ B : Mzed, Rep B (fun _ _ => (0 : Elem ff)) ∧ ¬ (B.ff.degree > 8 ∨ B.nrows * B.ncols < 2 ^ 17) := by
  obtain ⟨ff, h, hd⟩ := exists_aes
  exact ⟨ff, h, mzedInit ff 0 1024 1024, rep_init 0 1024 1024, by simp [mzedInit, hd]⟩

/-! ### C19: comparison -/

/-- **C19** -/
theorem C19_cmp {A B : Mzed} {MA MB : Nat → Nat → Elem ff} (hA : Rep A MA) (hB : Rep B MB) :
    mzedEq A B = true ↔ A.nrows = B.nrows ∧ A.ncols = B.ncols ∧ ∀ i j, i < A.nrows → j < A.ncols → MA i j = MB i j := by
  unfold mzedEq
  have hw : B.w = A.w := by rw [hA.wEq, hB.wEq]
  have hp := hA.wf.okW.pos
  simp only [Bool.and_eq_true, beq_iff_eq]
  unfold Mzed.bitCols
  rw [hw, mzdEq_iff hA.wf.okW, and_assoc, Nat.mul_right_inj (by omega)]
  refine and_congr_right fun _ => and_congr_right fun _ => ?_
  refine forall₂_congr fun i j => ?_
  rw [hA.entry, ← hw, hB.entry]
  refine imp_congr_right fun _ => imp_congr_right fun _ => ?_
  exact ⟨fun h => Elem.ext' h, fun h => by rw [h]⟩

/-- **C19** -/
theorem C19_is_zero {A : Mzed} {M : Nat → Nat → Elem ff} (hA : Rep A M) :
    mzedIsZero A = true ↔ ∀ i j, i < A.nrows → j < A.ncols → M i j = 0 := by
  unfold mzedIsZero Mzed.bitCols
  rw [mzdIsZero_iff hA.wf.okW]
  refine forall₂_congr fun i j => ?_
  rw [hA.entry]
  refine imp_congr_right fun _ => imp_congr_right fun _ => ?_
  exact ⟨fun h => Elem.ext' h, fun h => by rw [h]; rfl⟩

/-! ### C20: schoolbook product -/

/-- **C20** `mzed_mul_naive`: `C = A*B`. -/
theorem C20_mul_naive {A B C : Mzed} {MA MB MC : Nat → Nat → Elem ff} (hA : Rep A MA) (hB : Rep B MB) (hC : Rep C MC)
    (h1 : A.ncols = B.nrows) (h2 : A.fid = B.fid) (h3 : C.fid = A.fid) (h4 : C.nrows = A.nrows) (h5 : C.ncols = B.ncols) :
    ∃ R, mzedMulNaive? C A B = some R ∧ SameDim R C ∧ Rep R (fun i j => if i < C.nrows ∧ j < C.ncols then
      ∑ k ∈ Finset.range A.ncols, MA i k * MB k j else MC i j) := by
  unfold mzedMulNaive? mzedMulInit?
  rw [if_neg (by tauto), if_neg (by tauto), if_pos rfl]
  obtain ⟨s1, s2⟩ := hC.setUi (0 : Elem ff)
  obtain ⟨r1, r2⟩ := s1.mulNaiveAcc hA hB
  refine ⟨_, rfl, r2.trans s2, ?_⟩
  rw [s2.nrows, s2.ncols] at r1
  refine Eq.subst (motive := fun f => Rep _ f) ?_ r1
  funext i j
  by_cases hij : i < C.nrows ∧ j < C.ncols
  · simp [hij]
  · simp [hij]

/-- **C20** `mzed_addmul_naive`: `C += A*B`. -/
theorem C20_addmul_naive {A B C : Mzed} {MA MB MC : Nat → Nat → Elem ff} (hA : Rep A MA) (hB : Rep B MB) (hC : Rep C MC)
    (h1 : A.ncols = B.nrows) (h2 : A.fid = B.fid) (h3 : C.fid = A.fid) (h4 : C.nrows = A.nrows) (h5 : C.ncols = B.ncols) :
    ∃ R, mzedAddmulNaive? C A B = some R ∧ SameDim R C ∧ Rep R (fun i j => if i < C.nrows ∧ j < C.ncols then
      MC i j + ∑ k ∈ Finset.range A.ncols, MA i k * MB k j else MC i j) := by
  unfold mzedAddmulNaive? mzedMulInit?
  rw [if_neg (by tauto), if_neg (by tauto), if_neg (by simp)]
  obtain ⟨r1, r2⟩ := hC.mulNaiveAcc hA hB
  exact ⟨_, rfl, r2, r1⟩

/-- **C20/C25** incompatible operands die. -/
theorem C20_mul_dies (A B C : Mzed) (clear : Bool)
    (h : A.ncols ≠ B.nrows ∨ A.fid ≠ B.fid ∨ C.fid ≠ A.fid ∨ C.nrows ≠ A.nrows ∨ C.ncols ≠ B.ncols) :
    mzedMulInit? C A B clear = none := by
  unfold mzedMulInit?
  by_cases h1 : A.ncols ≠ B.nrows ∨ A.fid ≠ B.fid
  · rw [if_pos h1]
  · rw [if_neg h1, if_pos (by tauto)]

-- operands meeting the hypotheses: 3x5 times 5x2 over GF(2^16)
example : ∃ ff, ∃ _ : IsField ff, ∃ A B C : Mzed, Rep A (fun _ _ => (0 : Elem ff)) ∧ Rep B (fun _ _ => (0 : Elem ff)) ∧
    Rep C (fun _ _ => (0 : Elem ff)) ∧ A.ncols = B.nrows ∧ A.fid = B.fid ∧ C.fid = A.fid ∧ C.nrows = A.nrows ∧ C.ncols = B.ncols := by
  obtain ⟨ff, h, hd⟩ := exists_deg16
  exact ⟨ff, h, mzedInit ff 0 3 5, mzedInit ff 0 5 2, mzedInit ff 0 3 2, rep_init .., rep_init .., rep_init .., rfl, rfl, rfl, rfl, rfl⟩

/-! ### C42: canonical entries -/

/-- **C42** a represented matrix stores only numbers `< 2^e`; together with the theorems above
(`C12`-`C20`, `C43`, `C44`) every operation keeps the entries canonical. -/
theorem C42_canonical {A : Mzed} {M : Nat → Nat → Elem ff} (h : Rep A M) (i j : Nat) :
    (mzedReadElem A i j).toNat < 2 ^ ff.degree := by
  rw [h.read]; exact (M i j).2

/-- **C42** `mzed_randomize` stores reduced elements whatever `random()` returns. -/
theorem C42_randomize {A : Mzed} {M : Nat → Nat → Elem ff} (h : Rep A M) (rnd : Nat → Nat → Word) :
    ∃ N : Nat → Nat → Elem ff, Rep (mzedRandomize A rnd) (fun i j => if i < A.nrows ∧ j < A.ncols then N i j else M i j) ∧
      ∀ i j, (N i j).1.toNat = (rnd i j).toNat % 2 ^ ff.degree := by
  have hff : FFOK ff := Fact.out
  have hmask : ∀ v : Word, (v &&& (twoPow A.ff.degree - 1#64)).toNat = v.toNat % 2 ^ ff.degree := by
    intro v
    rw [h.ffEq]
    have h16 := hff.min.e16
    have : (twoPow ff.degree - 1#64) = lowMask ff.degree := by
      generalize ff.degree = e at *
      interval_cases e <;> decide
    rw [this, BitVec.toNat_and]
    unfold lowMask
    rw [BitVec.toNat_ofNat, Nat.mod_eq_of_lt, Nat.and_two_pow_sub_one_eq_mod]
    have : 2 ^ ff.degree ≤ 2 ^ 16 := Nat.pow_le_pow_right (by norm_num) h16
    have : (0:Nat) < 2 ^ ff.degree := by positivity
    omega
  let N : Nat → Nat → Elem ff := fun i j => ⟨rnd i j &&& (twoPow A.ff.degree - 1#64), by
    rw [hmask]; exact Nat.mod_lt _ (by positivity)⟩
  refine ⟨N, ?_, fun i j => hmask _⟩
  unfold mzedRandomize
  simp only []
  have inner : ∀ r (D : Mzed) (MD : Nat → Nat → Elem ff), Rep D MD → SameDim D A →
      Rep (forN (fun c A' => mzedWriteElem A' r c (rnd r c &&& (twoPow A.ff.degree - 1#64))) D.ncols D)
        (fun i j => if i = r ∧ j < D.ncols then N i j else MD i j) ∧
      SameDim (forN (fun c A' => mzedWriteElem A' r c (rnd r c &&& (twoPow A.ff.degree - 1#64))) D.ncols D) A := by
    intro r D MD hD hDA
    apply forN_inv (fun n (E : Mzed) => Rep E (fun i j => if i = r ∧ j < n then N i j else MD i j) ∧ SameDim E A)
    · exact ⟨by simpa using hD, hDA⟩
    · intro c E hc ⟨hE, hd⟩
      refine ⟨?_, ⟨hd.1, hd.2, hd.3⟩⟩
      convert hE.writeElem r c (N r c) using 3 with i j
      by_cases hij : i = r ∧ j = c
      · obtain ⟨rfl, rfl⟩ := hij; simp
      · rw [if_neg hij]
        apply if_congr _ rfl rfl
        omega
  have := forN_inv (fun n (E : Mzed) => Rep E (fun i j => if i < n ∧ j < A.ncols then N i j else M i j) ∧ SameDim E A)
    (fun r A' => forN (fun c A' => mzedWriteElem A' r c (rnd r c &&& (twoPow A.ff.degree - 1#64))) A'.ncols A')
    A A.nrows ⟨by simpa using h, SameDim.refl _⟩ (by
      intro r E hr ⟨hE, hd⟩
      obtain ⟨r1, r2⟩ := inner r E _ hE hd
      refine ⟨?_, r2⟩
      convert r1 using 3 with i j
      rw [hd.ncols]
      by_cases hij : i = r ∧ j < A.ncols
      · obtain ⟨rfl, hj⟩ := hij; simp [hj]
      · rw [if_neg hij]
        apply if_congr _ rfl rfl
        omega)
  exact this.1

/-! ### C43: block construction -/

/-- **C43** -/
theorem C43_concat {A B : Mzed} {MA MB : Nat → Nat → Elem ff} (hA : Rep A MA) (hB : Rep B MB) :
    (mzedConcat A B).nrows = A.nrows ∧ (mzedConcat A B).ncols = A.ncols + B.ncols ∧
    Rep (mzedConcat A B) (fun i j => if i < A.nrows ∧ j < A.ncols then MA i j
      else if i < A.nrows ∧ j < A.ncols + B.ncols then MB i (j - A.ncols) else 0) := by
  refine ⟨rfl, rfl, ⟨hA.ffEq, by show degreeToW A.ff.degree = _; rw [hA.ffEq], ?_⟩⟩
  intro i j
  have hw : (mzedConcat A B).w = A.w := by
    show degreeToW A.ff.degree = _; rw [hA.ffEq, hA.wEq]
  have hw' : B.w = A.w := by rw [hB.wEq, hA.wEq]
  rw [hw]
  unfold mzedConcat Mzed.bitCols
  simp only []
  rw [hw', mzdConcat_entry hA.wf.okW, hA.entry, ← hw', hB.entry]
  have : entryOf B.w (mzedInit A.ff A.fid A.nrows (A.ncols + B.ncols)).words i j = 0#64 := by simp [entryOf, mzedInit]
  rw [this]
  split_ifs <;> rfl

/-- **C43** -/
theorem C43_stack {A B : Mzed} {MA MB : Nat → Nat → Elem ff} (hA : Rep A MA) (hB : Rep B MB) :
    (mzedStack A B).nrows = A.nrows + B.nrows ∧ (mzedStack A B).ncols = A.ncols ∧
    Rep (mzedStack A B) (fun i j => if i < A.nrows ∧ j < A.ncols then MA i j
      else if i < A.nrows + B.nrows ∧ j < A.ncols then MB (i - A.nrows) j else 0) := by
  refine ⟨rfl, rfl, ⟨hA.ffEq, by show degreeToW A.ff.degree = _; rw [hA.ffEq], ?_⟩⟩
  intro i j
  have hw : (mzedStack A B).w = A.w := by
    show degreeToW A.ff.degree = _; rw [hA.ffEq, hA.wEq]
  have hw' : B.w = A.w := by rw [hB.wEq, hA.wEq]
  rw [hw]
  unfold mzedStack Mzed.bitCols
  simp only []
  rw [mzdStack_entry hA.wf.okW, hA.entry, ← hw', hB.entry]
  have : entryOf B.w (mzedInit A.ff A.fid (A.nrows + B.nrows) A.ncols).words i j = 0#64 := by simp [entryOf, mzedInit]
  rw [this]
  split_ifs <;> rfl

/-- **C43** -/
theorem C43_submatrix {A : Mzed} {M : Nat → Nat → Elem ff} (hA : Rep A M) (lr lc hr hc : Nat) :
    (mzedSubmatrix A lr lc hr hc).nrows = hr - lr ∧ (mzedSubmatrix A lr lc hr hc).ncols = hc - lc ∧
    Rep (mzedSubmatrix A lr lc hr hc) (fun i j => if i < hr - lr ∧ j < hc - lc then M (lr + i) (lc + j) else 0) := by
  refine ⟨rfl, rfl, ⟨hA.ffEq, by show degreeToW A.ff.degree = _; rw [hA.ffEq], ?_⟩⟩
  intro i j
  have hw : (mzedSubmatrix A lr lc hr hc).w = A.w := by
    show degreeToW A.ff.degree = _; rw [hA.ffEq, hA.wEq]
  rw [hw]
  unfold mzedSubmatrix
  simp only []
  rw [mzdSubmatrix_entry hA.wf.okW, hA.entry]
  have : entryOf A.w (mzedInit A.ff A.fid (hr - lr) (hc - lc)).words i j = 0#64 := by simp [entryOf, mzedInit]
  rw [this]
  split_ifs <;> rfl

/-- **C43** copy -/
theorem C43_copy {B C : Mzed} {MB MC : Nat → Nat → Elem ff} (hB : Rep B MB) (hC : Rep C MC) (hd : SameDim C B) :
    ∃ R, mzedCopy? C B = some R ∧ SameDim R B ∧
      Rep R (fun i j => if i < B.nrows ∧ j < B.ncols then MB i j else MC i j) := copy_rep hB hC hd

/-- **C43** a window starting at a word boundary shows the elements of the parent. -/
theorem C43_window {A : Mzed} {M : Nat → Nat → Elem ff} (hA : Rep A M) (lr lc hr hc : Nat) (hlc : A.w * lc % 64 = 0) :
    Rep (mzedWindow A lr lc hr hc) (fun i j => M (lr + i) (lc + j)) := by
  refine ⟨hA.ffEq, by show degreeToW A.ff.degree = _; rw [hA.ffEq], ?_⟩
  intro i j
  have hw : (mzedWindow A lr lc hr hc).w = A.w := by
    show degreeToW A.ff.degree = _; rw [hA.ffEq, hA.wEq]
  rw [hw]
  unfold mzedWindow
  simp only []
  rw [show degreeToW A.ff.degree = A.w by rw [hA.ffEq, hA.wEq], mzdWindow_entry hA.wf.okW _ _ _ _ _ hlc, hA.entry]

/-- **C43** writing through a window changes the parent at the corresponding positions only: if an
operation turns the window contents into `N`, the parent becomes `N` shifted by `(lr, lc)`. -/
theorem C43_window_write {A W : Mzed} {M N : Nat → Nat → Elem ff} (hA : Rep A M) (hW : Rep W N) (lr lc : Nat)
    (hlc : A.w * lc % 64 = 0) :
    Rep { A with words := mzdWindowWrite A.words lr (A.w * lc) W.words }
      (fun i j => if lr ≤ i ∧ lc ≤ j then N (i - lr) (j - lc) else M i j) := by
  refine hA.setWords _ ?_
  intro i j
  have hw : W.w = A.w := by rw [hW.wEq, hA.wEq]
  rw [mzdWindowWrite_entry hA.wf.okW _ _ _ _ _ _ hlc, hA.entry, ← hw, hW.entry]
  split_ifs <;> rfl

/-- **C43** concatenating and cutting out again gives the parts back. -/
theorem C43_concat_submatrix {A B : Mzed} {MA MB : Nat → Nat → Elem ff} (hA : Rep A MA) (hB : Rep B MB) :
    (∀ i j, i < A.nrows → j < A.ncols →
      mzedReadElem (mzedSubmatrix (mzedConcat A B) 0 0 A.nrows A.ncols) i j = mzedReadElem A i j) ∧
    (∀ i j, i < A.nrows → j < B.ncols →
      mzedReadElem (mzedSubmatrix (mzedConcat A B) 0 A.ncols A.nrows (A.ncols + B.ncols)) i j = mzedReadElem B i j) := by
  obtain ⟨_, _, hC⟩ := C43_concat hA hB
  constructor
  · intro i j hi hj
    obtain ⟨_, _, hS⟩ := C43_submatrix hC 0 0 A.nrows A.ncols
    rw [hS.read, hA.read]
    simp [hi, hj]
  · intro i j hi hj
    obtain ⟨_, _, hS⟩ := C43_submatrix hC 0 A.ncols A.nrows (A.ncols + B.ncols)
    rw [hS.read, hB.read]
    simp [hi, hj]

/-- **C43** the same for stacking. -/
theorem C43_stack_submatrix {A B : Mzed} {MA MB : Nat → Nat → Elem ff} (hA : Rep A MA) (hB : Rep B MB) :
    (∀ i j, i < A.nrows → j < A.ncols →
      mzedReadElem (mzedSubmatrix (mzedStack A B) 0 0 A.nrows A.ncols) i j = mzedReadElem A i j) ∧
    (∀ i j, i < B.nrows → j < A.ncols →
      mzedReadElem (mzedSubmatrix (mzedStack A B) A.nrows 0 (A.nrows + B.nrows) A.ncols) i j = mzedReadElem B i j) := by
  obtain ⟨_, _, hC⟩ := C43_stack hA hB
  constructor
  · intro i j hi hj
    obtain ⟨_, _, hS⟩ := C43_submatrix hC 0 0 A.nrows A.ncols
    rw [hS.read, hA.read]
    simp [hi, hj]
  · intro i j hi hj
    obtain ⟨_, _, hS⟩ := C43_submatrix hC A.nrows 0 (A.nrows + B.nrows) A.ncols
    rw [hS.read, hB.read]
    simp [hi, hj]

/-! ### C44: scalar matrices -/

/-- **C44** -/
theorem C44_set_ui {A : Mzed} {M : Nat → Nat → Elem ff} (h : Rep A M) (x : Elem ff) :
    Rep (mzedSetUi A x.1) (fun i j => if i < A.nrows ∧ j < A.ncols then (if i = j then x else 0) else M i j) ∧
    SameDim (mzedSetUi A x.1) A := h.setUi x

/-- **C44** `set_ui(I,1)` is a right identity for the schoolbook product. -/
theorem C44_identity {A I C : Mzed} {MA MI MC : Nat → Nat → Elem ff} (hA : Rep A MA) (hI : Rep I MI) (hC : Rep C MC)
    (h1 : I.nrows = A.ncols) (h1' : I.ncols = A.ncols) (h2 : A.fid = I.fid) (hd : SameDim C A) :
    ∃ R, mzedMulNaive? C A (mzedSetUi I 1#64) = some R ∧ SameDim R C ∧
      Rep R (fun i j => if i < A.nrows ∧ j < A.ncols then MA i j else MC i j) := by
  obtain ⟨s1, s2⟩ := hI.setUi (1 : Elem ff)
  have e : ((1 : Elem ff).1) = 1#64 := rfl
  rw [e] at s1 s2
  obtain ⟨R, r1, r2, r3⟩ := C20_mul_naive hA s1 hC (by rw [s2.nrows, h1]) (by rw [h2, s2.fid]) hd.fid hd.nrows
    (by rw [hd.ncols, s2.ncols, h1'])
  refine ⟨R, r1, r2, ?_⟩
  convert r3 using 3 with i j
  rw [hd.nrows, hd.ncols]
  by_cases hij : i < A.nrows ∧ j < A.ncols
  · rw [if_pos hij, if_pos hij]
    rw [Finset.sum_eq_single j]
    · rw [if_pos (by omega), if_pos rfl, mul_one]
    · intro k hk hkj
      rw [Finset.mem_range] at hk
      rw [if_pos (by omega), if_neg hkj, mul_zero]
    · intro hk; exact absurd (Finset.mem_range.2 hij.2) hk
  · rw [if_neg hij, if_neg hij]

/-! ### C45: first zero row -/

/-- **C45** all rows from the returned index on are zero, and the row before it is not. -/
theorem C45_first_zero_row {A : Mzed} {M : Nat → Nat → Elem ff} (h : Rep A M) :
    mzedFirstZeroRow A ≤ A.nrows ∧
    (∀ i, mzedFirstZeroRow A ≤ i → i < A.nrows → ∀ j, j < A.ncols → M i j = 0) ∧
    (0 < mzedFirstZeroRow A → ∃ j, j < A.ncols ∧ M (mzedFirstZeroRow A - 1) j ≠ 0) := by
  obtain ⟨h1, h2, h3⟩ := mzdFirstZeroRow_spec h.wf.okW A.ncols A.words A.nrows
  refine ⟨h1, ?_, ?_⟩
  · intro i hi1 hi2 j hj
    have := h2 i hi1 hi2 j hj
    rw [h.entry] at this
    exact Elem.ext' this
  · intro hpos
    obtain ⟨j, hj, hne⟩ := h3 hpos
    refine ⟨j, hj, fun hz => hne ?_⟩
    rw [h.entry]
    have : M (mzedFirstZeroRow A - 1) j = 0 := hz
    unfold mzedFirstZeroRow Mzed.bitCols at this
    rw [this]; rfl

end M4rie.Props
