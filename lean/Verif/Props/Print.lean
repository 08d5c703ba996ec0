import Verif.Model.Print
import Verif.Spec.Text
import Verif.Props.Slice

/-!
# Property C60: printing
-/

namespace M4rie.Props
open M4rie M4rie.Spec

theorem hexVal_digit : ∀ d < 16, hexVal (hexDigit d) = some d := by decide

theorem foldl_hexDigits (x : Nat) (s : Reader) (hs : s.num = none) : (hexDigits x).foldl Reader.step s = { s with num := some x } := by
  induction x using Nat.strong_induction_on with
  | _ x ih =>
    rw [hexDigits]
    by_cases h : x < 16
    · rw [dif_pos h]
      simp only [List.foldl_cons, List.foldl_nil, Reader.step, hexVal_digit x h, hs, Option.getD_none, Nat.mul_zero, Nat.zero_add]
    · rw [dif_neg h, List.foldl_append, ih (x / 16) (by omega)]
      simp only [List.foldl_cons, List.foldl_nil, Reader.step, hexVal_digit (x % 16) (by omega), Option.getD_some, Nat.div_add_mod]

theorem hexVal_blank : hexVal ' ' = none := by decide

theorem step_blank (s : Reader) : s.step ' ' = s.flush := by
  unfold Reader.step
  rw [hexVal_blank]
  exact if_neg (by decide)

theorem flush_none {s : Reader} (h : s.num = none) : s.flush = s := by
  unfold Reader.flush; rw [h]

theorem foldl_blanks (n : Nat) (s : Reader) (h : s.num = none) : (List.replicate n ' ').foldl Reader.step s = s := by
  induction n with
  | zero => rfl
  | succ n ih => rw [List.replicate_succ, List.foldl_cons, step_blank, flush_none h, ih]

theorem foldl_printHex (w : Nat) (x : Word) (hx : x.toNat < 2 ^ 32) (s : Reader) (h : s.num = none) :
    (printHex w x).foldl Reader.step s = { s with num := some x.toNat } := by
  unfold printHex
  rw [List.foldl_append, foldl_blanks _ _ h, foldl_hexDigits _ _ h, Nat.mod_eq_of_lt hx]

theorem foldl_printRow (w ncols : Nat) (read : Nat → Word) (hr : ∀ j, j < ncols → (read j).toNat < 2 ^ 32) :
    ∀ (k j : Nat), k = ncols - j → ∀ s : Reader, s.num = none →
      ((printRow w ncols read j).foldl Reader.step s).flush =
        { s with row := s.row ++ (List.range' j (ncols - j)).map fun j => (read j).toNat } := by
  intro k
  induction k with
  | zero =>
    intro j hk s hs
    rw [printRow, if_neg (by omega), ← hk]
    simp [flush_none hs]
  | succ k ih =>
    intro j hk s hs
    have hj : j < ncols := by omega
    rw [printRow, if_pos hj, List.foldl_append, List.foldl_append, foldl_printHex _ _ (hr j hj) _ hs, ← hk, List.range'_succ, List.map_cons]
    by_cases hl : j + 1 < ncols
    · rw [if_pos hl, List.foldl_cons, List.foldl_nil, step_blank, ih (j + 1) (by omega) _ rfl]
      simp only [Reader.flush, show ncols - (j + 1) = k by omega, List.append_assoc, List.singleton_append, hs]
    · rw [if_neg hl, List.foldl_nil, printRow, if_neg (by omega), List.foldl_nil]
      simp [Reader.flush, show k = 0 by omega, hs]

theorem foldl_printRows (w nrows ncols : Nat) (read : Nat → Nat → Word) (hr : ∀ i j, i < nrows → j < ncols → (read i j).toNat < 2 ^ 32) :
    ∀ (k i : Nat), k = nrows - i → ∀ s : Reader, s.num = none → s.row = [] →
      (printRows w nrows ncols read i).foldl Reader.step s =
        { s with rows := s.rows ++ (List.range' i (nrows - i)).map fun i => (List.range ncols).map fun j => (read i j).toNat } := by
  intro k
  induction k with
  | zero =>
    intro i hk s hs hrow
    rw [printRows, if_neg (by omega), ← hk]
    simp
  | succ k ih =>
    intro i hk s hs hrow
    have hi : i < nrows := by omega
    rw [printRows, if_pos hi, List.cons_append, List.cons_append, List.foldl_cons, List.foldl_append, List.foldl_append]
    have h1 : s.step '[' = s := by
      unfold Reader.step
      rw [show hexVal '[' = none by decide]
      exact (if_neg (by decide)).trans (flush_none hs)
    rw [h1]
    have hf := foldl_printRow w ncols (read i) (fun j hj => hr i j hi hj) ncols 0 rfl s hs
    generalize (printRow w ncols (read i) 0).foldl Reader.step s = s1 at hf
    have h2 : [']', '\n'].foldl Reader.step s1 = { s with rows := s.rows ++ [(List.range ncols).map fun j => (read i j).toNat], row := [] } := by
      have e1 : s1.step ']' = { s1.flush with rows := s1.rows ++ [s1.flush.row], row := [] } := by
        unfold Reader.step
        rw [show hexVal ']' = none by decide]
        rfl
      have hrows : s1.rows = s1.flush.rows := by
        unfold Reader.flush; split <;> rfl
      rw [List.foldl_cons, e1, hrows, hf, List.foldl_cons, List.foldl_nil]
      unfold Reader.step
      rw [show hexVal '\n' = none by decide]
      simp only [show ('\n' = ']') = False by decide, if_false]
      rw [flush_none (by simp only [hs]), hrow, List.nil_append, Nat.sub_zero, List.range_eq_range']
    rw [h2, ih (i + 1) (by omega) (Reader.mk _ [] s.num) hs rfl, ← hk, List.range'_succ, List.map_cons]
    simp [show nrows - (i + 1) = k by omega, hrow]

/-- the entries of an `m × n` matrix as lists of numbers -/
def entries {ff : Gf2e} (m n : Nat) (M : Nat → Nat → Elem ff) : List (List Nat) :=
  (List.range m).map fun i => (List.range n).map fun j => (M i j).1.toNat

theorem readText_printRows (w m n : Nat) (read : Nat → Nat → Word) (hr : ∀ i j, i < m → j < n → (read i j).toNat < 2 ^ 32) :
    readText (printRows w m n read 0) = (List.range m).map fun i => (List.range n).map fun j => (read i j).toNat := by
  unfold readText
  rw [foldl_printRows w m n read hr m 0 rfl _ rfl rfl]
  simp only [List.nil_append, Nat.sub_zero, List.range_eq_range']

theorem hexDigits_length (k : Nat) : ∀ x, x < 16 ^ (k + 1) → (hexDigits x).length ≤ k + 1 := by
  induction k with
  | zero => intro x hx; rw [hexDigits, dif_pos (by simpa using hx)]; simp
  | succ k ih =>
    intro x hx
    rw [hexDigits]
    by_cases h : x < 16
    · rw [dif_pos h]; simp
    · rw [dif_neg h, List.length_append]
      have := ih (x / 16) (by rw [Nat.div_lt_iff_lt_mul (by decide), ← Nat.pow_succ]; exact hx)
      simp only [List.length_singleton]; omega

theorem hexDigits_no_newline (x : Nat) : '\n' ∉ hexDigits x := by
  have hd : ∀ d < 16, '\n' ≠ hexDigit d := by decide
  induction x using Nat.strong_induction_on with
  | _ x ih =>
    rw [hexDigits]
    by_cases h : x < 16
    · rw [dif_pos h]; simpa using hd x h
    · rw [dif_neg h]
      simp only [List.mem_append, List.mem_singleton, not_or]
      exact ⟨ih _ (by omega), hd _ (by omega)⟩

theorem printHex_length {k : Nat} {x : Word} (hx : x.toNat < 16 ^ (k + 1)) (h32 : x.toNat < 2 ^ 32) : (printHex (k + 1) x).length = k + 1 := by
  unfold printHex
  rw [Nat.mod_eq_of_lt h32]
  have := hexDigits_length k _ hx
  simp only [List.length_append, List.length_replicate]
  omega

theorem printHex_no_newline (w : Nat) (x : Word) : '\n' ∉ printHex w x := by
  unfold printHex
  simp only [List.mem_append, List.mem_replicate, not_or, not_and]
  exact ⟨fun _ => by decide, hexDigits_no_newline _⟩

theorem printRow_length {k n : Nat} {r : Nat → Word} (h : ∀ j, j < n → (printHex (k + 1) (r j)).length = k + 1) :
    ∀ t j, t = n - j → (printRow (k + 1) n r j).length = (n - j) * (k + 1) + (n - j - 1) ∧ '\n' ∉ printRow (k + 1) n r j := by
  intro t
  induction t with
  | zero => intro j ht; rw [printRow, if_neg (by omega), ← ht]; simp
  | succ t ih =>
    intro j ht
    obtain ⟨i1, i2⟩ := ih (j + 1) (by omega)
    rw [printRow, if_pos (show j < n by omega)]
    refine ⟨?_, ?_⟩
    · rw [List.length_append, List.length_append, h j (by omega), i1, ← ht, show n - (j + 1) = t by omega, Nat.succ_mul]
      by_cases hl : j + 1 < n
      · rw [if_pos hl, List.length_singleton]; omega
      · rw [if_neg hl, List.length_nil]; omega
    · simp only [List.mem_append, not_or]
      refine ⟨⟨printHex_no_newline _ _, ?_⟩, i2⟩
      by_cases hl : j + 1 < n
      · rw [if_pos hl]; decide
      · rw [if_neg hl]; decide

theorem printRows_lines {k m n : Nat} {r : Nat → Nat → Word} (h : ∀ i j, i < m → j < n → (printHex (k + 1) (r i j)).length = k + 1) :
    ∀ t i, t = m - i → ∃ lines : List (List Char), printRows (k + 1) m n r i = (lines.map (· ++ ['\n'])).flatten ∧ lines.length = m - i ∧
      ∀ l ∈ lines, l.length = n * (k + 1) + (n - 1) + 2 ∧ '\n' ∉ l := by
  intro t
  induction t with
  | zero => intro i ht; exact ⟨[], by rw [printRows, if_neg (by omega)]; rfl, by simpa using ht, by simp⟩
  | succ t ih =>
    intro i ht
    obtain ⟨lines, e, hl, hall⟩ := ih (i + 1) (by omega)
    obtain ⟨p1, p2⟩ := printRow_length (fun j hj => h i j (by omega) hj) n 0 rfl
    refine ⟨('[' :: printRow (k + 1) n (r i) 0 ++ [']']) :: lines, ?_, ?_, ?_⟩
    · rw [printRows, if_pos (show i < m by omega), e]
      simp
    · rw [List.length_cons, hl]; omega
    · intro l hl
      rcases List.mem_cons.1 hl with rfl | hl
      · refine ⟨?_, ?_⟩
        · simp only [List.length_append, List.length_cons, p1, List.length_nil, Nat.sub_zero]
        · simp only [List.cons_append, List.mem_cons, List.mem_append, not_or, p2]
          decide
      · exact hall l hl

theorem printRow_congr (w n : Nat) {r r' : Nat → Word} (h : ∀ j, j < n → r j = r' j) : ∀ k j, k = n - j → printRow w n r j = printRow w n r' j := by
  intro k
  induction k with
  | zero => intro j hk; rw [printRow, if_neg (by omega), printRow.eq_1 w n r', if_neg (by omega)]
  | succ k ih => intro j hk; rw [printRow, if_pos (show j < n by omega), printRow.eq_1 w n r', if_pos (show j < n by omega), h j (by omega), ih (j + 1) (by omega)]

theorem printRows_congr (w m n : Nat) {r r' : Nat → Nat → Word} (h : ∀ i j, i < m → j < n → r i j = r' i j) :
    ∀ k i, k = m - i → printRows w m n r i = printRows w m n r' i := by
  intro k
  induction k with
  | zero => intro i hk; rw [printRows, if_neg (by omega), printRows.eq_1 w m n r', if_neg (by omega)]
  | succ k ih =>
    intro i hk
    rw [printRows, if_pos (show i < m by omega), printRows.eq_1 w m n r', if_pos (show i < m by omega), printRow_congr w n (fun j hj => h i j (by omega) hj) n 0 rfl, ih (i + 1) (by omega)]

variable {ff : Gf2e} [IsField ff]

theorem elem_lt32 (x : Elem ff) : x.1.toNat < 2 ^ 32 := by
  have h := x.2
  have h16 : ff.degree ≤ 16 := (IsField.minpoly_eq (ff := ff)).2.1.min.e16
  exact h.trans_le (Nat.pow_le_pow_right (by decide) (by omega))

/-- **C60** the text printed for a packed matrix, read again, is the matrix. -/
theorem C60_print_packed {A : Mzed} {M : Nat → Nat → Elem ff} (hA : Rep A M) : readText (mzedPrint A) = entries A.nrows A.ncols M := by
  unfold mzedPrint entries
  rw [readText_printRows]
  · simp only [C12_read hA]
  · intro i j _ _
    rw [C12_read hA]; exact elem_lt32 _

/-- **C60** the text printed for a sliced matrix, read again, is the matrix. -/
theorem C60_print_sliced {A : Slice} {M : Nat → Nat → Elem ff} (hA : SRep A M) : readText (mzdSlicePrint A) = entries A.nrows A.ncols M := by
  unfold mzdSlicePrint entries
  rw [readText_printRows]
  · simp only [C47_read hA]
  · intro i j _ _
    rw [C47_read hA]; exact elem_lt32 _

/-- **C60** both representations print the same text. -/
theorem C60_print_same {A : Mzed} {B : Slice} {M N : Nat → Nat → Elem ff} (hA : Rep A M) (hB : SRep B N) (hm : A.nrows = B.nrows)
    (hn : A.ncols = B.ncols) (h : ∀ i j, i < A.nrows → j < A.ncols → M i j = N i j) : mzedPrint A = mzdSlicePrint B := by
  unfold mzedPrint mzdSlicePrint
  rw [hA.wEq, hB.ffEq, ← hm, ← hn]
  refine printRows_congr _ _ _ (fun i j hi hj => ?_) A.nrows 0 rfl
  rw [C12_read hA, C47_read hB, h i j hi hj]

/-- the number of hexadecimal digits of an entry -/
theorem printWidth_spec {x : Elem ff} : ∃ k, printWidth (degreeToW ff.degree) = k + 1 ∧ (printHex (k + 1) x.1).length = k + 1 := by
  have h2 := IsField.two_le (ff := ff)
  have h16 : ff.degree ≤ 16 := (IsField.minpoly_eq (ff := ff)).2.1.min.e16
  have hx := x.2
  have key : ∀ d, 2 ≤ d → d ≤ 16 → ∃ k, printWidth (degreeToW d) = k + 1 ∧ 2 ^ d ≤ 16 ^ (k + 1) := by
    intro d h2 h16
    interval_cases d <;> first | exact ⟨0, by decide, by decide⟩ | exact ⟨1, by decide, by decide⟩ | exact ⟨3, by decide, by decide⟩
  obtain ⟨k, e, h⟩ := key _ h2 h16
  exact ⟨k, e, printHex_length (hx.trans_le h) (elem_lt32 x)⟩

/-- **C60** the printed rows are aligned: there are `nrows` lines, all of the same length. -/
theorem C60_print_lines {A : Mzed} {M : Nat → Nat → Elem ff} (hA : Rep A M) : ∃ lines : List (List Char),
    mzedPrint A = (lines.map (· ++ ['\n'])).flatten ∧ lines.length = A.nrows ∧
      ∀ l ∈ lines, l.length = A.ncols * printWidth (degreeToW ff.degree) + (A.ncols - 1) + 2 ∧ '\n' ∉ l := by
  obtain ⟨k, e, -⟩ := printWidth_spec (x := M 0 0)
  have := printRows_lines (k := k) (m := A.nrows) (n := A.ncols) (r := mzedReadElem A) (fun i j _ _ => by
    obtain ⟨k', e', h'⟩ := printWidth_spec (x := M i j)
    have : k' = k := by omega
    rw [C12_read hA, ← this]; exact h') A.nrows 0 rfl
  unfold mzedPrint
  rw [hA.wEq, e]
  exact this

-- a 3 x 5 matrix over the AES field with entries of one and of two digits
example : ∃ ff, ∃ _ : IsField ff, ∃ (A : Mzed) (B : Slice) (M : Nat → Nat → Elem ff), Rep A M ∧ SRep B M ∧ A.nrows = 3 ∧ A.ncols = 5 ∧ B.nrows = 3 ∧
    B.ncols = 5 ∧ (M 0 0).1 = 1#64 ∧ (M 1 2).1 = 0x1f#64 := by
  obtain ⟨ff, h, hd⟩ := exists_aes
  let M : Nat → Nat → Elem ff := fun i j => if i = 1 ∧ j = 2 then ⟨0x1f#64, by rw [hd]; decide⟩ else 1
  exact ⟨ff, h, _, _, M, pack_rep (⟨3, 5, 0, M⟩ : Mat ff), spack_rep (⟨3, 5, 0, M⟩ : Mat ff), rfl, rfl, rfl, rfl, rfl, rfl⟩

end M4rie.Props
