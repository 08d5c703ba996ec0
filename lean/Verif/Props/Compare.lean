import Verif.Proofs.Compare
import Verif.Props.PolyHistory

/-!
# Property C77: what the sign of a comparison means

`mzed_cmp`, `mzd_slice_cmp` and `mzd_poly_cmp` are documented to return -1, 0 or 1 for less, equal, greater, "not well defined (except for != 0)".  `mzed_cmp` is a total order, so
packed matrices can be sorted and searched; the other two are not orders at all.
-/

namespace M4rie.Props
open M4rie M4rie.Spec
variable {ff : Gf2e} [IsField ff]

/-! ### M4RI -/

/-- smaller number of rows, or of columns, or earlier in the order of the contents -/
def MzdLt (A B : (Nat × Nat) × (Nat → Nat → Word)) : Prop :=
  A.1.1 < B.1.1 ∨ (A.1.1 = B.1.1 ∧ A.1.2 < B.1.2) ∨ (A.1.1 = B.1.1 ∧ A.1.2 = B.1.2 ∧ MatBefore A.1.1 A.1.2 (matBits A.2) (matBits B.2))

def MzdSame (A B : (Nat × Nat) × (Nat → Nat → Word)) : Prop := A.1 = B.1 ∧ MatSame A.1.1 A.1.2 (matBits A.2) (matBits B.2)

theorem mzdCmp_total (A B : (Nat × Nat) × (Nat → Nat → Word)) :
    (mzdCmp A B = -1#32 ∧ MzdLt A B) ∨ (mzdCmp A B = 1#32 ∧ MzdLt B A) ∨ (mzdCmp A B = 0#32 ∧ MzdSame A B) := by
  obtain ⟨⟨m, n⟩, A⟩ := A
  obtain ⟨⟨m', n'⟩, B⟩ := B
  rcases Nat.lt_trichotomy m m' with h | h | h
  · exact Or.inl ⟨if_pos h, Or.inl h⟩
  · subst h
    rcases Nat.lt_trichotomy n n' with h | h | h
    · refine Or.inl ⟨?_, Or.inr (Or.inl ⟨rfl, h⟩)⟩
      show (if m < m then _ else if m < m then _ else if n < n' then _ else _) = _
      rw [if_neg (Nat.lt_irrefl m), if_neg (Nat.lt_irrefl m), if_pos h]
    · subst h
      rcases mzdCmp_spec m n A B with ⟨e, hb⟩ | ⟨e, hb⟩ | ⟨e, hb⟩
      · exact Or.inl ⟨e, Or.inr (Or.inr ⟨rfl, rfl, hb⟩)⟩
      · exact Or.inr (Or.inl ⟨e, Or.inr (Or.inr ⟨rfl, rfl, hb⟩)⟩)
      · exact Or.inr (Or.inr ⟨e, rfl, hb⟩)
    · refine Or.inr (Or.inl ⟨?_, Or.inr (Or.inl ⟨rfl, h⟩)⟩)
      show (if m < m then _ else if m < m then _ else if n < n' then _ else if n' < n then _ else _) = _
      rw [if_neg (Nat.lt_irrefl m), if_neg (Nat.lt_irrefl m), if_neg (by omega), if_pos h]
  · refine Or.inr (Or.inl ⟨?_, Or.inl h⟩)
    show (if m < m' then _ else if m' < m then _ else _) = _
    rw [if_neg (by omega), if_pos h]

theorem MzdLt.asymm' {A B : (Nat × Nat) × (Nat → Nat → Word)} (h : MzdLt A B) : ¬ MzdLt B A := by
  rintro (h' | ⟨a, h'⟩ | ⟨a, b, h'⟩)
  · rcases h with h | ⟨c, h⟩ | ⟨c, d, h⟩ <;> omega
  · rcases h with h | ⟨c, h⟩ | ⟨c, d, h⟩ <;> omega
  · rcases h with h | ⟨c, h⟩ | ⟨c, d, h⟩
    · omega
    · omega
    · rw [a, b] at h'
      exact h.asymm h'

theorem MzdLt.not_same {A B : (Nat × Nat) × (Nat → Nat → Word)} (h : MzdLt A B) : ¬ MzdSame A B := by
  rintro ⟨e, hs⟩
  have e1 := congrArg Prod.fst e
  have e2 := congrArg Prod.snd e
  rcases h with h | ⟨c, h⟩ | ⟨c, d, h⟩
  · omega
  · omega
  · exact h.ne hs

theorem MzdSame.symm' {A B : (Nat × Nat) × (Nat → Nat → Word)} (h : MzdSame A B) : MzdSame B A := by
  obtain ⟨e, hs⟩ := h
  refine ⟨e.symm, ?_⟩
  rw [← e]
  exact hs.symm

theorem matBefore_congr {m n : Nat} {M N M' N' : Nat → Nat → Nat} (h1 : MatSame m n M M') (h2 : MatSame m n N N') (h : MatBefore m n M N) : MatBefore m n M' N' := by
  obtain ⟨i, hi, h3, h4⟩ := h
  exact ⟨i, hi, fun a ha j hj => by rw [← h1 a (by omega) j hj, ← h2 a (by omega) j hj]; exact h3 a ha j hj, h4.congr (fun j hj => h1 i hi j hj) fun j hj => h2 i hi j hj⟩

theorem MzdLt.trans' {A B C : (Nat × Nat) × (Nat → Nat → Word)} (h : MzdLt A B) (h' : MzdLt B C) : MzdLt A C := by
  rcases h with h | ⟨c, h⟩ | ⟨c, d, h⟩
  · rcases h' with h' | ⟨a, h'⟩ | ⟨a, b, h'⟩ <;> exact Or.inl (by omega)
  · rcases h' with h' | ⟨a, h'⟩ | ⟨a, b, h'⟩
    · exact Or.inl (by omega)
    · exact Or.inr (Or.inl ⟨by omega, by omega⟩)
    · exact Or.inr (Or.inl ⟨by omega, by omega⟩)
  · rcases h' with h' | ⟨a, h'⟩ | ⟨a, b, h'⟩
    · exact Or.inl (by omega)
    · exact Or.inr (Or.inl ⟨by omega, by omega⟩)
    · rw [← c, ← d] at h'
      exact Or.inr (Or.inr ⟨by omega, by omega, h.trans h'⟩)

theorem MzdLt.congr_left {A B C : (Nat × Nat) × (Nat → Nat → Word)} (h : MzdSame A B) (h' : MzdLt B C) : MzdLt A C := by
  obtain ⟨e, hs⟩ := h
  unfold MzdLt at h' ⊢
  rw [e] at hs ⊢
  exact h'.imp id (Or.imp id fun ⟨a, b, h⟩ => ⟨a, b, matBefore_congr hs.symm (fun _ _ _ _ => rfl) h⟩)

theorem MzdLt.congr_right {A B C : (Nat × Nat) × (Nat → Nat → Word)} (h : MzdLt A B) (h' : MzdSame B C) : MzdLt A C := by
  obtain ⟨e, hs⟩ := h'
  unfold MzdLt at h ⊢
  rw [← e]
  refine h.imp id (Or.imp id fun ⟨a, b, h⟩ => ⟨a, b, matBefore_congr (fun _ _ _ _ => rfl) ?_ h⟩)
  rw [a, b]
  exact hs

theorem mzdSame_trans {A B C : (Nat × Nat) × (Nat → Nat → Word)} (h : MzdSame A B) (h' : MzdSame B C) : MzdSame A C := by
  refine ⟨h.1.trans h'.1, fun i hi j hj => (h.2 i hi j hj).trans (h'.2 i ?_ j ?_)⟩
  · rw [← h.1]; exact hi
  · rw [← h.1]; exact hj

/-- -1 exactly for less, 1 exactly for greater -/
theorem mzdCmp_iff (A B : (Nat × Nat) × (Nat → Nat → Word)) :
    (mzdCmp A B = -1#32 ↔ MzdLt A B) ∧ (mzdCmp A B = 1#32 ↔ MzdLt B A) ∧ (mzdCmp A B = 0#32 ↔ MzdSame A B) := by
  rcases mzdCmp_total A B with ⟨e, h⟩ | ⟨e, h⟩ | ⟨e, h⟩
  · exact ⟨⟨fun _ => h, fun _ => e⟩, ⟨fun h' => by rw [e] at h'; exact absurd h' (by decide), fun h' => absurd h' h.asymm'⟩,
      ⟨fun h' => by rw [e] at h'; exact absurd h' (by decide), fun h' => absurd h' h.not_same⟩⟩
  · exact ⟨⟨fun h' => by rw [e] at h'; exact absurd h' (by decide), fun h' => absurd h' h.asymm'⟩, ⟨fun _ => h, fun _ => e⟩,
      ⟨fun h' => by rw [e] at h'; exact absurd h' (by decide), fun h' => absurd h'.symm' h.not_same⟩⟩
  · exact ⟨⟨fun h' => by rw [e] at h'; exact absurd h' (by decide), fun h' => absurd h h'.not_same⟩,
      ⟨fun h' => by rw [e] at h'; exact absurd h' (by decide), fun h' => absurd h.symm' h'.not_same⟩, ⟨fun _ => h, fun _ => e⟩⟩

/-- M4RI's comparison satisfies the contract C56, C66, C72 assume -/
theorem C77_contract : CmpOk mzdCmp := by
  intro A B
  rw [(mzdCmp_iff A B).2.2]
  refine and_congr_right fun _ => ⟨fun h i j hi hj => ?_, fun h i hi j hj => congrArg Bool.toNat (h i j hi hj)⟩
  have : ∀ {x y : Bool}, x.toNat = y.toNat → x = y := by decide
  exact this (h i hi j hj)

/-- the laws of a total order: the result is -1, 0 or 1, it changes its sign if the arguments are exchanged, and "not greater" is transitive -/
def IsComparison {T : Type} (cmp : T → T → BitVec 32) : Prop :=
  (∀ A B, cmp A B = -1#32 ∨ cmp A B = 0#32 ∨ cmp A B = 1#32) ∧ (∀ A B, cmp B A = -cmp A B) ∧ ∀ A B C, cmp A B ≠ 1#32 → cmp B C ≠ 1#32 → cmp A C ≠ 1#32

theorem mzdCmp_order : IsComparison mzdCmp := by
  refine ⟨fun A B => ?_, fun A B => ?_, fun A B C h1 h2 h3 => ?_⟩
  · rcases mzdCmp_total A B with ⟨e, _⟩ | ⟨e, _⟩ | ⟨e, _⟩
    · exact Or.inl e
    · exact Or.inr (Or.inr e)
    · exact Or.inr (Or.inl e)
  · rcases mzdCmp_total A B with ⟨e, h⟩ | ⟨e, h⟩ | ⟨e, h⟩
    · rw [e, (mzdCmp_iff B A).2.1.2 h]; decide
    · rw [e, (mzdCmp_iff B A).1.2 h]
    · rw [e, (mzdCmp_iff B A).2.2.2 h.symm']; decide
  · have hca := (mzdCmp_iff A C).2.1.1 h3
    rcases mzdCmp_total A B with ⟨-, h⟩ | ⟨e, -⟩ | ⟨-, h⟩
    · rcases mzdCmp_total B C with ⟨-, h'⟩ | ⟨e, -⟩ | ⟨-, h'⟩
      · exact hca.asymm' (h.trans' h')
      · exact h2 e
      · exact hca.asymm' (h.congr_right h')
    · exact h1 e
    · rcases mzdCmp_total B C with ⟨-, h'⟩ | ⟨e, -⟩ | ⟨-, h'⟩
      · exact hca.asymm' (MzdLt.congr_left h h')
      · exact h2 e
      · exact hca.not_same (mzdSame_trans h h').symm'

/-! ### packed matrices -/

/-- **C77** `mzed_cmp` is a total order on packed matrices -/
theorem C77_mzed_order : IsComparison mzedCmp :=
  ⟨fun _ _ => mzdCmp_order.1 _ _, fun _ _ => mzdCmp_order.2.1 _ _, fun _ _ _ => mzdCmp_order.2.2 _ _ _⟩

/-- the elements of a matrix as numbers (the polynomial evaluated at 2) -/
def elemNat (M : Nat → Nat → Elem ff) (i j : Nat) : Nat := (M i j).1.toNat

theorem before_elem {A B : Mzed} {MA MB : Nat → Nat → Elem ff} (hA : Rep A MA) (hB : Rep B MB) {m n : Nat} (h : MatBefore m (A.w * n) (matBits A.words) (matBits B.words)) :
    MatBefore m n (elemNat MA) (elemNat MB) := by
  have hw := hA.wf.okW
  have hwB : B.w = A.w := by rw [hA.wEq, hB.wEq]
  have hwB' := hB.wf.okW
  have inj : ∀ {x y : Bool}, x.toNat = y.toNat → x = y := by decide
  obtain ⟨i, hi, h1, h2⟩ := h
  refine ⟨i, hi, fun i' hi' j hj => ?_, ?_⟩
  · refine congrArg BitVec.toNat (BitVec.eq_of_getLsbD_eq fun q _ => ?_)
    rw [← hA.entry, ← hB.entry]
    by_cases hq : q < A.w
    · rw [entry_bits hw _ _ _ _ hq, entry_bits hwB' _ _ _ _ (by omega), hwB]
      exact inj (h1 i' hi' _ ((pos_lt hq).2 hj))
    · rw [entry_bits_ge hw _ _ _ _ (by omega), entry_bits_ge hwB' _ _ _ _ (by omega)]
  · refine lanes_before (w := A.w) (f := fun p => bitAt A.words i p) (g := fun p => bitAt B.words i p) (F := fun j => (MA i j).1) (G := fun j => (MB i j).1) hw.pos
      (fun j q hq => ?_) (fun j q hq => ?_) (fun j q hq => ?_) (fun j q hq => ?_) h2
    · rw [← hA.entry]; exact entry_bits hw _ _ _ _ hq
    · rw [← hB.entry, ← hwB]; exact entry_bits hwB' _ _ _ _ (by omega)
    · rw [← hA.entry]; exact entry_bits_ge hw _ _ _ _ hq
    · rw [← hB.entry]; exact entry_bits_ge hwB' _ _ _ _ (by omega)

/-- **C77** the order of `mzed_cmp` on matrices of equal dimensions over the same field: the first row that differs decides, in it the last element that differs; elements are
compared as numbers. -/
theorem C77_mzed {A B : Mzed} {MA MB : Nat → Nat → Elem ff} (hA : Rep A MA) (hB : Rep B MB) (hm : A.nrows = B.nrows) (hn : A.ncols = B.ncols) :
    (mzedCmp A B = -1#32 ↔ MatBefore A.nrows A.ncols (elemNat MA) (elemNat MB)) ∧ (mzedCmp A B = 1#32 ↔ MatBefore A.nrows A.ncols (elemNat MB) (elemNat MA)) ∧
    (mzedCmp A B = 0#32 ↔ ∀ i j, i < A.nrows → j < A.ncols → MA i j = MB i j) := by
  have hw : B.w = A.w := by rw [hA.wEq, hB.wEq]
  have eb : B.bitCols = A.bitCols := by unfold Mzed.bitCols; rw [hw, hn]
  have he := C19_cmp hA hB
  have he' : MatSame A.nrows A.bitCols (matBits A.words) (matBits B.words) ↔ ∀ i j, i < A.nrows → j < A.ncols → MA i j = MB i j := by
    have h0 := (C77_contract ((A.nrows, A.bitCols), A.words) ((B.nrows, B.bitCols), B.words)).symm.trans (mzdCmp_iff _ _).2.2
    have h1 : mzedEq A B = true ↔ MatSame A.nrows A.bitCols (matBits A.words) (matBits B.words) := by
      unfold mzedEq mzdEq
      simp only [Bool.and_eq_true, beq_iff_eq, List.all_eq_true, List.mem_range]
      have inj : ∀ {x y : Bool}, x.toNat = y.toNat → x = y := by decide
      exact ⟨fun h i hi j hj => congrArg Bool.toNat (h.2 i hi j hj), fun h => ⟨⟨hm, eb.symm⟩, fun i hi j hj => inj (h i hi j hj)⟩⟩
    rw [← h1, he]
    exact ⟨fun h => h.2.2, fun h => ⟨hm, hn, h⟩⟩
  have hno : ∀ {M N : Nat → Nat → Elem ff}, MatBefore A.nrows A.ncols (elemNat M) (elemNat N) → ¬ ∀ i j, i < A.nrows → j < A.ncols → M i j = N i j := fun h h' =>
    h.ne fun i hi j hj => by unfold elemNat; rw [h' i j hi hj]
  unfold mzedCmp
  rw [← hm, eb]
  rcases mzdCmp_spec A.nrows A.bitCols A.words B.words with ⟨e, h⟩ | ⟨e, h⟩ | ⟨e, h⟩
  · have h' := before_elem hA hB h
    rw [e]
    exact ⟨⟨fun _ => h', fun _ => rfl⟩, ⟨fun h => absurd h (by decide), fun h => absurd h h'.asymm⟩, ⟨fun h => absurd h (by decide), fun h => absurd h (hno h')⟩⟩
  · have h' := before_elem (m := A.nrows) (n := A.ncols) hB hA (by rw [hw]; exact h)
    rw [e]
    exact ⟨⟨fun h => absurd h (by decide), fun h => absurd h h'.asymm⟩, ⟨fun _ => h', fun _ => rfl⟩,
      ⟨fun h => absurd h (by decide), fun h => absurd (fun i j hi hj => (h i j hi hj).symm) (hno h')⟩⟩
  · have h' := he'.1 h
    rw [e]
    exact ⟨⟨fun h => absurd h (by decide), fun h => absurd h' (hno h)⟩,
      ⟨fun h => absurd h (by decide), fun h => absurd (fun i j hi hj => (h' i j hi hj).symm) (hno h)⟩, ⟨fun _ => h', fun _ => rfl⟩⟩

/-- **C77** matrices of different dimensions: fewer rows, or equally many rows and fewer columns, is less -/
theorem C77_mzed_dims {A B : Mzed} {MA MB : Nat → Nat → Elem ff} (hA : Rep A MA) (hB : Rep B MB) (hd : ¬ (A.nrows = B.nrows ∧ A.ncols = B.ncols)) :
    mzedCmp A B = if A.nrows < B.nrows ∨ (A.nrows = B.nrows ∧ A.ncols < B.ncols) then -1#32 else 1#32 := by
  have hw : B.w = A.w := by rw [hA.wEq, hB.wEq]
  have hp := hA.wf.okW.pos
  have hlt : ∀ a b, A.w * a < A.w * b ↔ a < b := fun a b => Nat.mul_lt_mul_left hp
  unfold mzedCmp mzdCmp Mzed.bitCols
  dsimp only
  rw [hw]
  simp only [hlt]
  by_cases h1 : A.nrows < B.nrows
  · rw [if_pos h1, if_pos (Or.inl h1)]
  rw [if_neg h1]
  by_cases h2 : B.nrows < A.nrows
  · rw [if_pos h2, if_neg (by omega)]
  rw [if_neg h2]
  by_cases h3 : A.ncols < B.ncols
  · rw [if_pos h3, if_pos (Or.inr ⟨by omega, h3⟩)]
  rw [if_neg h3, if_pos (by omega), if_neg (by omega)]

/-! ### sliced matrices -/

theorem orFold {c : Nat → BitVec 32} (hc : ∀ i, c i = -1#32 ∨ c i = 0#32 ∨ c i = 1#32) : ∀ n,
    (forN (fun i r => r ||| c i) n 0#32 = -1#32 ∧ ∃ i, i < n ∧ c i = -1#32) ∨
    (forN (fun i r => r ||| c i) n 0#32 = 1#32 ∧ (∀ i, i < n → c i ≠ -1#32) ∧ ∃ i, i < n ∧ c i = 1#32) ∨
    (forN (fun i r => r ||| c i) n 0#32 = 0#32 ∧ ∀ i, i < n → c i = 0#32) := by
  intro n
  induction n with
  | zero => exact Or.inr (Or.inr ⟨rfl, fun i hi => absurd hi (Nat.not_lt_zero i)⟩)
  | succ n ih =>
    have up : ∀ i, i < n + 1 → i < n ∨ i = n := fun i h => by omega
    rcases ih with ⟨e, i, hi, h⟩ | ⟨e, h, i, hi, h'⟩ | ⟨e, h⟩
    · refine Or.inl ⟨?_, i, by omega, h⟩
      rw [forN, e]
      rcases hc n with q | q | q <;> rw [q] <;> decide
    · rcases hc n with q | q | q
      · exact Or.inl ⟨by rw [forN, e, q]; decide, n, by omega, q⟩
      · refine Or.inr (Or.inl ⟨by rw [forN, e, q]; decide, fun k hk => ?_, i, by omega, h'⟩)
        rcases up k hk with hk | rfl
        · exact h k hk
        · rw [q]; decide
      · refine Or.inr (Or.inl ⟨by rw [forN, e, q]; decide, fun k hk => ?_, i, by omega, h'⟩)
        rcases up k hk with hk | rfl
        · exact h k hk
        · rw [q]; decide
    · rcases hc n with q | q | q
      · exact Or.inl ⟨by rw [forN, e, q]; decide, n, by omega, q⟩
      · refine Or.inr (Or.inr ⟨by rw [forN, e, q]; decide, fun k hk => ?_⟩)
        rcases up k hk with hk | rfl
        · exact h k hk
        · exact q
      · refine Or.inr (Or.inl ⟨by rw [forN, e, q]; decide, fun k hk => ?_, n, by omega, q⟩)
        rcases up k hk with hk | rfl
        · rw [h k hk]; decide
        · rw [q]; decide

/-- the coefficients of `x^t` of the elements, as numbers -/
def coeffNat (M : Nat → Nat → Elem ff) (t i j : Nat) : Nat := ((M i j).1.getLsbD t).toNat

omit [IsField ff] in
/-- **C77** `mzd_slice_cmp` for matrices of equal dimensions over the same field: -1 if the matrix of the coefficients of some `x^t` is less, 1 if none is less and some is greater,
0 if all are equal. -/
theorem C77_slice {A B : Slice} {MA MB : Nat → Nat → Elem ff} (hA : SRep A MA) (hB : SRep B MB) (hd : SSameDim A B) :
    (mzdSliceCmp A B = -1#32 ↔ ∃ t, t < ff.degree ∧ MatBefore A.nrows A.ncols (coeffNat MA t) (coeffNat MB t)) ∧
    (mzdSliceCmp A B = 1#32 ↔ (∀ t, t < ff.degree → ¬ MatBefore A.nrows A.ncols (coeffNat MA t) (coeffNat MB t)) ∧
      ∃ t, t < ff.degree ∧ MatBefore A.nrows A.ncols (coeffNat MB t) (coeffNat MA t)) ∧
    (mzdSliceCmp A B = 0#32 ↔ ∀ t, t < ff.degree → MatSame A.nrows A.ncols (coeffNat MA t) (coeffNat MB t)) := by
  have eA : ∀ t, matBits (A.x t) = coeffNat MA t := fun t => by funext i j; unfold matBits coeffNat; rw [hA.bit]
  have eB : ∀ t, matBits (B.x t) = coeffNat MB t := fun t => by funext i j; unfold matBits coeffNat; rw [hB.bit]
  have key : ∀ t, (mzdCmp ((A.nrows, A.ncols), A.x t) ((B.nrows, B.ncols), B.x t) = -1#32 ↔ MatBefore A.nrows A.ncols (coeffNat MA t) (coeffNat MB t)) ∧
      (mzdCmp ((A.nrows, A.ncols), A.x t) ((B.nrows, B.ncols), B.x t) = 1#32 ↔ MatBefore A.nrows A.ncols (coeffNat MB t) (coeffNat MA t)) ∧
      (mzdCmp ((A.nrows, A.ncols), A.x t) ((B.nrows, B.ncols), B.x t) = 0#32 ↔ MatSame A.nrows A.ncols (coeffNat MA t) (coeffNat MB t)) := by
    intro t
    rw [← hd.nrows, ← hd.ncols, ← eA, ← eB]
    rcases mzdCmp_spec A.nrows A.ncols (A.x t) (B.x t) with ⟨e, h⟩ | ⟨e, h⟩ | ⟨e, h⟩ <;> rw [e]
    · exact ⟨⟨fun _ => h, fun _ => rfl⟩, ⟨fun h' => absurd h' (by decide), fun h' => absurd h' h.asymm⟩, ⟨fun h' => absurd h' (by decide), fun h' => absurd h' h.ne⟩⟩
    · exact ⟨⟨fun h' => absurd h' (by decide), fun h' => absurd h' h.asymm⟩, ⟨fun _ => h, fun _ => rfl⟩, ⟨fun h' => absurd h' (by decide), fun h' => absurd h'.symm h.ne⟩⟩
    · exact ⟨⟨fun h' => absurd h' (by decide), fun h' => absurd h h'.ne⟩, ⟨fun h' => absurd h' (by decide), fun h' => absurd h.symm h'.ne⟩, ⟨fun _ => h, fun _ => rfl⟩⟩
  have hdep : A.depth = ff.degree := hA.depthEq
  unfold mzdSliceCmp
  rw [if_neg (by rw [hd.fid, hA.depthEq, hB.depthEq]; simp), hdep]
  rcases orFold (c := fun t => mzdCmp ((A.nrows, A.ncols), A.x t) ((B.nrows, B.ncols), B.x t)) (fun t => mzdCmp_order.1 _ _) ff.degree with ⟨e, t, ht, h⟩ | ⟨e, h, t, ht, h'⟩ | ⟨e, h⟩
  · rw [e]
    have hb := (key t).1.1 h
    exact ⟨⟨fun _ => ⟨t, ht, hb⟩, fun _ => rfl⟩, ⟨fun h' => absurd h' (by decide), fun h' => absurd hb (h'.1 t ht)⟩,
      ⟨fun h' => absurd h' (by decide), fun h' => absurd (h' t ht) hb.ne⟩⟩
  · rw [e]
    have hb := (key t).2.1.1 h'
    refine ⟨⟨fun h' => absurd h' (by decide), ?_⟩, ⟨fun _ => ⟨fun s hs hb' => h s hs ((key s).1.2 hb'), t, ht, hb⟩, fun _ => rfl⟩,
      ⟨fun h' => absurd h' (by decide), fun h' => absurd (h' t ht).symm hb.ne⟩⟩
    rintro ⟨s, hs, hb'⟩
    exact absurd ((key s).1.2 hb') (h s hs)
  · rw [e]
    refine ⟨⟨fun h' => absurd h' (by decide), ?_⟩, ⟨fun h' => absurd h' (by decide), ?_⟩, ⟨fun _ t ht => (key t).2.2.1 (h t ht), fun _ => rfl⟩⟩
    · rintro ⟨s, hs, hb'⟩
      exact absurd ((key s).2.2.1 (h s hs)) hb'.ne
    · rintro ⟨-, s, hs, hb'⟩
      exact absurd ((key s).2.2.1 (h s hs)).symm hb'.ne

theorem orFold_same {c : Nat → BitVec 32} {x : BitVec 32} (hc : ∀ i, c i = x) : ∀ n, 0 < n → forN (fun i r => r ||| c i) n 0#32 = x
  | 0, h => absurd h (Nat.lt_irrefl 0)
  | 1, _ => by rw [forN, forN, hc]; exact BitVec.zero_or
  | n + 2, _ => by rw [forN, orFold_same hc (n + 1) (Nat.succ_pos n), hc]; exact BitVec.or_self

/-- **C77** sliced matrices over different fields, also of different degrees, compare as less both ways, never as equal -/
theorem C77_slice_fields {A B : Slice} (h : A.fid ≠ B.fid ∨ A.depth ≠ B.depth) : mzdSliceCmp A B = -1#32 ∧ mzdSliceCmp B A = -1#32 :=
  ⟨if_pos h, if_pos (h.imp Ne.symm Ne.symm)⟩

/-- **C77** sliced matrices over the same field of different dimensions: fewer rows, or equally many rows and fewer columns, is less -/
theorem C77_slice_dims {A B : Slice} {MA MB : Nat → Nat → Elem ff} (hA : SRep A MA) (hB : SRep B MB) (hf : A.fid = B.fid) (hd : ¬ (A.nrows = B.nrows ∧ A.ncols = B.ncols)) :
    mzdSliceCmp A B = if A.nrows < B.nrows ∨ (A.nrows = B.nrows ∧ A.ncols < B.ncols) then -1#32 else 1#32 := by
  have hdep : A.depth = ff.degree := hA.depthEq
  have h2 : 2 ≤ ff.degree := IsField.two_le
  unfold mzdSliceCmp
  rw [if_neg (by rw [hf, hA.depthEq, hB.depthEq]; simp), hdep]
  refine orFold_same (fun i => ?_) _ (by omega)
  unfold mzdCmp
  dsimp only
  by_cases h1 : A.nrows < B.nrows
  · rw [if_pos h1, if_pos (Or.inl h1)]
  rw [if_neg h1]
  by_cases h2 : B.nrows < A.nrows
  · rw [if_pos h2, if_neg (by omega)]
  rw [if_neg h2]
  by_cases h3 : A.ncols < B.ncols
  · rw [if_pos h3, if_pos (Or.inr ⟨by omega, h3⟩)]
  rw [if_neg h3, if_pos (by omega), if_neg (by omega)]

/-- the element `x` of the field -/
def elemX (ff : Gf2e) [IsField ff] : Elem ff := ⟨2#64, by
  have : 2 ≤ ff.degree := IsField.two_le
  calc (2#64 : Word).toNat < 2 ^ 2 := by decide
    _ ≤ 2 ^ ff.degree := Nat.pow_le_pow_right (by norm_num) this⟩

/-- **C77** (negation) `mzd_slice_cmp` is not an order: over every field, for all dimensions, there are two matrices each of which is "less" than the other. -/
theorem C77_violation_slice (fid : Nat) {m n : Nat} (hm : 0 < m) (hn : 0 < n) : ∃ (A B : Slice) (MA MB : Nat → Nat → Elem ff), SRep A MA ∧ SRep B MB ∧ A.nrows = m ∧ A.ncols = n ∧
    SSameDim A B ∧ mzdSliceCmp A B = -1#32 ∧ mzdSliceCmp B A = -1#32 := by
  have hd : 2 ≤ ff.degree := IsField.two_le
  refine ⟨Mat.spack (ff := ff) ⟨m, n, fid, fun i j => if i = 0 ∧ j = 0 then 1 else 0⟩, Mat.spack (ff := ff) ⟨m, n, fid, fun i j => if i = 0 ∧ j = 0 then elemX ff else 0⟩,
    _, _, spack_rep _, spack_rep _, rfl, rfl, ⟨rfl, rfl, rfl⟩, ?_, ?_⟩
  · have key := C77_slice (spack_rep (⟨m, n, fid, fun i j => if i = 0 ∧ j = 0 then 1 else 0⟩ : Mat ff)) (spack_rep (⟨m, n, fid, fun i j => if i = 0 ∧ j = 0 then elemX ff else 0⟩ : Mat ff)) ⟨rfl, rfl, rfl⟩
    refine key.1.2 ⟨1, by omega, 0, hm, fun i' hi => absurd hi (Nat.not_lt_zero _), 0, hn, ?_, fun j' hj _ => ?_⟩
    · show (((if (0 : Nat) = 0 ∧ (0 : Nat) = 0 then (1 : Elem ff) else 0).1).getLsbD 1).toNat < (((if (0 : Nat) = 0 ∧ (0 : Nat) = 0 then elemX ff else 0).1).getLsbD 1).toNat
      rw [if_pos ⟨rfl, rfl⟩, if_pos ⟨rfl, rfl⟩]
      show ((1#64 : Word).getLsbD 1).toNat < ((2#64 : Word).getLsbD 1).toNat
      decide
    · show (((if (0 : Nat) = 0 ∧ j' = 0 then (1 : Elem ff) else 0).1).getLsbD 1).toNat = (((if (0 : Nat) = 0 ∧ j' = 0 then elemX ff else 0).1).getLsbD 1).toNat
      rw [if_neg (by omega), if_neg (by omega)]
  · have key := C77_slice (spack_rep (⟨m, n, fid, fun i j => if i = 0 ∧ j = 0 then elemX ff else 0⟩ : Mat ff)) (spack_rep (⟨m, n, fid, fun i j => if i = 0 ∧ j = 0 then 1 else 0⟩ : Mat ff)) ⟨rfl, rfl, rfl⟩
    refine key.1.2 ⟨0, by omega, 0, hm, fun i' hi => absurd hi (Nat.not_lt_zero _), 0, hn, ?_, fun j' hj _ => ?_⟩
    · show (((if (0 : Nat) = 0 ∧ (0 : Nat) = 0 then elemX ff else 0).1).getLsbD 0).toNat < (((if (0 : Nat) = 0 ∧ (0 : Nat) = 0 then (1 : Elem ff) else 0).1).getLsbD 0).toNat
      rw [if_pos ⟨rfl, rfl⟩, if_pos ⟨rfl, rfl⟩]
      show ((2#64 : Word).getLsbD 0).toNat < ((1#64 : Word).getLsbD 0).toNat
      decide
    · show (((if (0 : Nat) = 0 ∧ j' = 0 then elemX ff else 0).1).getLsbD 0).toNat = (((if (0 : Nat) = 0 ∧ j' = 0 then (1 : Elem ff) else 0).1).getLsbD 0).toNat
      rw [if_neg (by omega), if_neg (by omega)]

/-- **C77** (negation) and it disagrees with `mzed_cmp` on the same matrices in packed form: there the matrix with `x` is greater than the one with `1`. -/
theorem C77_violation_representations (fid : Nat) : ∃ (A B : Mzed) (A' B' : Slice) (MA MB : Nat → Nat → Elem ff), Rep A MA ∧ Rep B MB ∧ SRep A' MA ∧ SRep B' MB ∧ SSameDim A' B' ∧
    A.nrows = A'.nrows ∧ A.ncols = A'.ncols ∧ B.nrows = B'.nrows ∧ B.ncols = B'.ncols ∧ mzedCmp A B = 1#32 ∧ mzdSliceCmp A' B' = -1#32 := by
  have hd : 2 ≤ ff.degree := IsField.two_le
  refine ⟨Mat.pack (ff := ff) ⟨1, 1, fid, fun _ _ => elemX ff⟩, Mat.pack (ff := ff) ⟨1, 1, fid, fun _ _ => 1⟩, Mat.spack (ff := ff) ⟨1, 1, fid, fun _ _ => elemX ff⟩,
    Mat.spack (ff := ff) ⟨1, 1, fid, fun _ _ => 1⟩, _, _, pack_rep _, pack_rep _, spack_rep _, spack_rep _, ⟨rfl, rfl, rfl⟩, rfl, rfl, rfl, rfl, ?_, ?_⟩
  · have key := C77_mzed (pack_rep (⟨1, 1, fid, fun _ _ => elemX ff⟩ : Mat ff)) (pack_rep (⟨1, 1, fid, fun _ _ => 1⟩ : Mat ff)) rfl rfl
    refine key.2.1.2 ⟨0, Nat.zero_lt_one, fun i' hi => absurd hi (Nat.not_lt_zero _), 0, Nat.zero_lt_one, ?_, fun j' h1 h2 => ?_⟩
    · show (1#64 : Word).toNat < (2#64 : Word).toNat
      decide
    · have h2 : j' < 1 := h2
      omega
  · have key := C77_slice (spack_rep (⟨1, 1, fid, fun _ _ => elemX ff⟩ : Mat ff)) (spack_rep (⟨1, 1, fid, fun _ _ => 1⟩ : Mat ff)) ⟨rfl, rfl, rfl⟩
    refine key.1.2 ⟨0, by omega, 0, Nat.zero_lt_one, fun i' hi => absurd hi (Nat.not_lt_zero _), 0, Nat.zero_lt_one, ?_, fun j' h1 h2 => ?_⟩
    · show ((2#64 : Word).getLsbD 0).toNat < ((1#64 : Word).getLsbD 0).toNat
      decide
    · have h2 : j' < 1 := h2
      omega

/-! ### polynomials -/

/-- **C77** `mzd_poly_cmp` returns -1, 0 or 1; fewer coefficients is less; otherwise it is -1 if some coefficient is less, 0 if all are equal -/
theorem C77_poly (A B : MzdPoly) :
    (mzdPolyCmp mzdCmp A B = -1#32 ∨ mzdPolyCmp mzdCmp A B = 0#32 ∨ mzdPolyCmp mzdCmp A B = 1#32) ∧
    (A.depth < B.depth → mzdPolyCmp mzdCmp A B = -1#32) ∧ (B.depth < A.depth → mzdPolyCmp mzdCmp A B = 1#32) ∧
    (A.depth = B.depth → A.nrows = B.nrows → A.ncols = B.ncols →
      (mzdPolyCmp mzdCmp A B = -1#32 ↔ ∃ t, t < A.depth ∧ MatBefore A.nrows A.ncols (matBits (A.x t)) (matBits (B.x t))) ∧
      (mzdPolyCmp mzdCmp A B = 0#32 ↔ ∀ t, t < A.depth → MatSame A.nrows A.ncols (matBits (A.x t)) (matBits (B.x t)))) := by
  unfold mzdPolyCmp
  rcases Nat.lt_trichotomy A.depth B.depth with h | h | h
  · rw [if_pos (by omega), if_pos h]
    exact ⟨Or.inl rfl, fun _ => rfl, fun h' => by omega, fun h' => by omega⟩
  · rw [if_neg (by omega)]
    have hf := orFold (c := fun t => mzdCmp ((A.nrows, A.ncols), A.x t) ((B.nrows, B.ncols), B.x t)) (fun t => mzdCmp_order.1 _ _) A.depth
    refine ⟨?_, fun h' => by omega, fun h' => by omega, fun _ h1 h2 => ?_⟩
    · rcases hf with ⟨e, -⟩ | ⟨e, -⟩ | ⟨e, -⟩
      · exact Or.inl e
      · exact Or.inr (Or.inr e)
      · exact Or.inr (Or.inl e)
    · have key : ∀ t, mzdCmp ((A.nrows, A.ncols), A.x t) ((B.nrows, B.ncols), B.x t) = -1#32 ↔ MatBefore A.nrows A.ncols (matBits (A.x t)) (matBits (B.x t)) := by
        intro t
        rw [← h1, ← h2, (mzdCmp_iff _ _).1]
        unfold MzdLt
        dsimp only
        exact ⟨fun h => by rcases h with h | ⟨_, h⟩ | ⟨_, _, h⟩ <;> first | exact h | omega, fun h => Or.inr (Or.inr ⟨rfl, rfl, h⟩)⟩
      have key0 : ∀ t, mzdCmp ((A.nrows, A.ncols), A.x t) ((B.nrows, B.ncols), B.x t) = 0#32 ↔ MatSame A.nrows A.ncols (matBits (A.x t)) (matBits (B.x t)) := by
        intro t
        rw [← h1, ← h2, (mzdCmp_iff _ _).2.2]
        exact ⟨fun h => h.2, fun h => ⟨rfl, h⟩⟩
      rcases hf with ⟨e, t, ht, hh⟩ | ⟨e, hh, t, ht, h1'⟩ | ⟨e, hh⟩
      · rw [e]
        refine ⟨⟨fun _ => ⟨t, ht, (key t).1 hh⟩, fun _ => rfl⟩, ⟨fun h' => absurd h' (by decide), fun h' => ?_⟩⟩
        exact absurd (h' t ht) ((key t).1 hh).ne
      · rw [e]
        refine ⟨⟨fun h' => absurd h' (by decide), fun ⟨t, ht, hb⟩ => absurd ((key t).2 hb) (hh t ht)⟩, ⟨fun h' => absurd h' (by decide), fun h' => ?_⟩⟩
        rw [(key0 t).2 (h' t ht)] at h1'
        exact absurd h1' (by decide)
      · rw [e]
        refine ⟨⟨fun h' => absurd h' (by decide), fun ⟨t, ht, hb⟩ => ?_⟩, ⟨fun _ t ht => (key0 t).1 (hh t ht), fun _ => rfl⟩⟩
        have := (key t).2 hb
        rw [hh t ht] at this
        exact absurd this (by decide)
  · rw [if_pos (by omega), if_neg (by omega)]
    exact ⟨Or.inr (Or.inr rfl), fun h' => by omega, fun _ => rfl, fun h' => by omega⟩

/-- **C77** (negation) `mzd_poly_cmp` is not an order either: for all dimensions and every depth from 2 on there are two polynomials each of which is "less" than the other. -/
theorem C77_violation_poly {m n d : Nat} (hm : 0 < m) (hn : 0 < n) (hd : 2 ≤ d) : ∃ A B : MzdPoly, A.nrows = m ∧ A.ncols = n ∧ A.depth = d ∧ B.nrows = m ∧ B.ncols = n ∧ B.depth = d ∧
    mzdPolyCmp mzdCmp A B = -1#32 ∧ mzdPolyCmp mzdCmp B A = -1#32 := by
  have hb : ∀ t t' : Nat, t ≠ t' → MatBefore m n (matBits (fun i j => if i = 0 ∧ j = 0 ∧ t = t' then 1#64 else 0#64)) (matBits (fun i j => if i = 0 ∧ j = 0 ∧ t = t then 1#64 else 0#64)) := by
    intro t t' ht
    refine ⟨0, hm, fun i' hi => absurd hi (Nat.not_lt_zero _), 0, hn, ?_, fun j' hj _ => ?_⟩
    · unfold matBits bitAt
      beta_reduce
      rw [if_neg (fun h : _ ∧ _ ∧ t = t' => ht h.2.2), if_pos ⟨rfl, rfl, rfl⟩]
      decide
    · unfold matBits bitAt
      beta_reduce
      rw [if_neg (fun h : _ ∧ _ ∧ t = t' => ht h.2.2)]
      by_cases h : j' / 64 = 0
      · rw [if_pos ⟨rfl, h, rfl⟩]
        have h1 : j' % 64 = j' := by omega
        have h2 : j' ≠ 0 := by omega
        rw [h1]
        congr 1
        rw [show (1#64 : Word) = BitVec.twoPow 64 0 from by decide, BitVec.getLsbD_twoPow, BitVec.getLsbD_zero]
        simp [Ne.symm h2]
      · rw [if_neg (fun h' => h h'.2.1)]
  let A : MzdPoly := ⟨m, n, d, d, fun t i j => if i = 0 ∧ j = 0 ∧ t = 0 then 1#64 else 0#64⟩
  let B : MzdPoly := ⟨m, n, d, d, fun t i j => if i = 0 ∧ j = 0 ∧ t = 1 then 1#64 else 0#64⟩
  exact ⟨A, B, rfl, rfl, rfl, rfl, rfl, rfl, ((C77_poly A B).2.2.2 rfl rfl rfl).1.2 ⟨1, (by omega : 1 < d), hb 1 0 (by decide)⟩,
    ((C77_poly B A).2.2.2 rfl rfl rfl).1.2 ⟨0, (by omega : 0 < d), hb 0 1 (by decide)⟩⟩

/-- two matrices of different contents over GF(2^8) meet the hypotheses of `C77_mzed`: the one with the smaller number in the last differing column of the first differing row is less,
whatever stands in the row below -/
example : ∃ ff : Gf2e, ∃ _ : IsField ff, ∃ (A B : Mzed) (MA MB : Nat → Nat → Elem ff), Rep A MA ∧ Rep B MB ∧ A.nrows = 2 ∧ A.ncols = 3 ∧ B.nrows = 2 ∧ B.ncols = 3 ∧
    (MB 1 2).1 = 0 ∧ (MA 1 2).1 = 1 ∧ mzedCmp A B = -1#32 := by
  obtain ⟨ff, hf, -⟩ := exists_aes
  let X : Mat ff := ⟨2, 3, 0, fun i _ => if i = 0 then 0 else 1⟩
  let Y : Mat ff := ⟨2, 3, 0, fun i j => if i = 0 ∧ j = 1 then elemX ff else 0⟩
  have key := C77_mzed (pack_rep X) (pack_rep Y) rfl rfl
  refine ⟨ff, hf, X.pack, Y.pack, _, _, pack_rep X, pack_rep Y, rfl, rfl, rfl, rfl, rfl, rfl, ?_⟩
  refine key.1.2 ⟨0, Nat.zero_lt_two, fun i' hi => absurd hi (Nat.not_lt_zero _), 1, (by decide : 1 < 3), ?_, fun j' h1 _ => ?_⟩
  · show ((if (0 : Nat) = 0 then (0 : Elem ff) else 1).1).toNat < ((if (0 : Nat) = 0 ∧ (1 : Nat) = 1 then elemX ff else 0).1).toNat
    rw [if_pos rfl, if_pos ⟨rfl, rfl⟩]
    show (0#64 : Word).toNat < (2#64 : Word).toNat
    decide
  · show ((if (0 : Nat) = 0 then (0 : Elem ff) else 1).1).toNat = ((if (0 : Nat) = 0 ∧ j' = 1 then elemX ff else 0).1).toNat
    rw [if_pos rfl, if_neg (by omega)]

/-- three numbers in a row of two words: the later column decides, also across words -/
example : mzdCmpRow 70 (fun j => if j = 0 then 5#64 else 0#64) (fun j => if j = 0 then 3#64 else 1#64) 2 = -1#32 ∧
    mzdCmpRow 70 (fun j => if j = 0 then 5#64 else 64#64) (fun j => if j = 0 then 3#64 else 0#64) 2 = 1#32 := by decide +kernel

/-- matrices over two fields of the same degree meet the hypothesis of `C77_slice_fields`, matrices over one field of dimensions 2 x 5 and 3 x 1 those of `C77_slice_dims` -/
example : ∃ ff : Gf2e, ∃ _ : IsField ff, ∃ A B C : Slice, ∃ MA MC : Nat → Nat → Elem ff, A.depth = B.depth ∧ A.fid ≠ B.fid ∧ SRep A MA ∧ SRep C MC ∧ A.fid = C.fid ∧
    mzdSliceCmp A B = -1#32 ∧ mzdSliceCmp B A = -1#32 ∧ mzdSliceCmp A C = -1#32 ∧ mzdSliceCmp C A = 1#32 := by
  obtain ⟨ff, hf, -⟩ := exists_aes
  let X : Mat ff := ⟨2, 5, 0, fun _ _ => 1⟩
  let Y : Mat ff := ⟨2, 5, 1, fun _ _ => 1⟩
  let Z : Mat ff := ⟨3, 1, 0, fun _ _ => 0⟩
  have h : X.spack.fid ≠ Y.spack.fid := (by decide : (0 : Nat) ≠ 1)
  have e1 : X.spack.nrows = 2 := rfl
  have e2 : Z.spack.nrows = 3 := rfl
  have h1 := C77_slice_dims (spack_rep X) (spack_rep Z) rfl (by rw [e1, e2]; exact fun h => absurd h.1 (by decide))
  have h2 := C77_slice_dims (spack_rep Z) (spack_rep X) rfl (by rw [e1, e2]; exact fun h => absurd h.1 (by decide))
  rw [e1, e2, if_pos (Or.inl (by decide))] at h1
  rw [e1, e2, if_neg (by omega)] at h2
  exact ⟨ff, hf, X.spack, Y.spack, Z.spack, _, _, rfl, h, spack_rep X, spack_rep Z, rfl, (C77_slice_fields (Or.inl h)).1, (C77_slice_fields (Or.inl h)).2, h1, h2⟩

end M4rie.Props
