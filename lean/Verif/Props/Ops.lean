import Verif.Proofs.OpsLower
import Verif.Props.NewtonJohn
import Verif.Props.Ple
import Verif.Props.Trsm

/-!
# C80: how many products of field elements the Newton-John algorithms make

README.md: "fast row echelon form computation and matrix inversion via a Newton-John Table based algorithm using only O(n^2) field multiplications and O(n^3)
field additions".  That is so for the PLE decomposition, for solving triangular systems and for a multiplication of few rows, and for the elimination with one table.
With more tables the elimination does not stay below any multiple of `n^2`: the rows in which it searches a pivot are cleared with multiples of the rows above
them before it looks at them, and if there is no pivot that happens to every row (`C80_violation`).
-/

namespace M4rie.Props
open M4rie M4rie.Spec

variable {ff : Gf2e} [IsField ff]

theorem rep_shape {A : Mzed} {M : Nat → Nat → Elem ff} (h : Rep A M) : Shape ff.degree A.nrows A.ncols A :=
  ⟨rfl, rfl, by rw [h.ffEq], by rw [h.wEq]; exact okW_ff⟩

theorem deg_two : 2 ≤ ff.degree := IsField.two_le
theorem deg_sixteen : ff.degree ≤ 16 := (Fact.out : FFOK ff).min.e16

/-- **C80** `mzed_ple_newton_john` multiplies at most `e n` times for each unit of the rank of an `m × n` matrix over GF(2^e), and the result is the decomposition. -/
theorem C80_ple {cb : Codebook} (hcb : cb.Ok ff.degree) {A : Mzed} {M : Nat → Nat → Elem ff} (h : Rep A M) (P Q : Nat → Nat) :
    DecomposedPLE A M P Q (mzedPleNewtonJohnC cb A P Q).val ∧
    (mzedPleNewtonJohnC cb A P Q).muls ≤ rank A.nrows A.ncols M * (ff.degree * A.ncols) ∧
    (mzedPleNewtonJohnC cb A P Q).adds ≤ rank A.nrows A.ncols M * ((ff.degree + 2 ^ ff.degree + A.nrows) * A.ncols) := by
  have hT : TabShape (n := A.ncols) ff.degree (njtInit A.ff A.fid A.ncols) := by rw [h.ffEq]; exact njtInit_shape
  obtain ⟨c, -⟩ := costs_pleLoop cb (deg_two (ff := ff)) A.ncols ⟨A, P, Q, 0, 0, njtInit A.ff A.fid A.ncols⟩ (rep_shape h) hT
  have hd := C32_ple_newton_john hcb h P Q
  have hr : (pleLoop (pleClearNj cb) A.ncols ⟨A, P, Q, 0, 0, njtInit A.ff A.fid A.ncols⟩).rowPos = rank A.nrows A.ncols M := by
    obtain ⟨R, F, P', Q', h1, -⟩ := hd
    have : (mzedPleNewtonJohn cb A P Q).2.2.2 = rank A.nrows A.ncols M := by rw [h1]
    exact this
  rw [hr] at c
  have c' := costs_map pleFinish c
  refine ⟨?_, c'.muls, c'.adds⟩
  have e : (mzedPleNewtonJohnC cb A P Q).val = mzedPleNewtonJohn cb A P Q := c'.val
  rw [e]
  exact hd

section
variable {A B : Mzed} {MA MB : Nat → Nat → Elem ff} (hA : Rep A MA) (hB : Rep B MB)
  (hd : ∀ i, i < B.nrows → MA i i ≠ 0) (hn : 0 < B.ncols) (h1 : A.nrows = B.nrows) (h2 : A.ncols = B.nrows)
include hA hB hd hn h1 h2

/-- **C80** `mzed_trsm_lower_left_newton_john(L,B)`: at most `2^e n` products for each row of the `m × n` matrix `B`. -/
theorem C80_trsm_lower {cb : Codebook} (hcb : cb.Ok ff.degree) :
    SolvedLower (trsmLowerLeftNewtonJohnC cb A B).val B MA MB ∧
    (trsmLowerLeftNewtonJohnC cb A B).muls ≤ B.nrows * (2 ^ ff.degree * B.ncols) ∧
    (trsmLowerLeftNewtonJohnC cb A B).adds ≤ B.nrows * ((ff.degree + 2 ^ ff.degree + B.nrows) * B.ncols) := by
  have hS : Shape ff.degree B.nrows B.nrows A := by
    have := rep_shape hA
    rwa [h1, h2] at this
  have c := costs_trsmLower cb (deg_two (ff := ff)) rfl (rep_shape hB) hB.ffEq hS
  refine ⟨?_, c.muls, c.adds⟩
  rw [c.val]
  exact C29_lower_newton_john hA hB hd hn hcb

/-- **C80** `mzed_trsm_upper_left_newton_john(U,B)` -/
theorem C80_trsm_upper {cb : Codebook} (hcb : cb.Ok ff.degree) :
    SolvedUpper (trsmUpperLeftNewtonJohnC cb A B).val B MA MB ∧
    (trsmUpperLeftNewtonJohnC cb A B).muls ≤ B.nrows * (2 ^ ff.degree * B.ncols) ∧
    (trsmUpperLeftNewtonJohnC cb A B).adds ≤ B.nrows * ((ff.degree + 2 ^ ff.degree + B.nrows) * B.ncols) := by
  have hS : Shape ff.degree B.nrows B.nrows A := by
    have := rep_shape hA
    rwa [h1, h2] at this
  have c := costs_trsmUpper cb (deg_two (ff := ff)) rfl (rep_shape hB) hB.ffEq hS
  refine ⟨?_, c.muls, c.adds⟩
  rw [c.val]
  exact C29_upper_newton_john hA hB hd hn hcb

end

section
variable {cb : Codebook} {bs : Nat} {A B C : Mzed} {MA MB MC : Nat → Nat → Elem ff} (hA : Rep A MA) (hB : Rep B MB) (hC : Rep C MC)
    (h1 : A.ncols = B.nrows) (h2 : A.fid = B.fid) (h3 : C.fid = A.fid) (h4 : C.nrows = A.nrows) (h5 : C.ncols = B.ncols)
include hA hB hC h1 h2 h3 h4 h5

/-- **C80** `mzed_mul_newton_john(C,A,B)` and `mzed_addmul_newton_john(C,A,B)` for an `m × k` and a `k × n` matrix make at most `(e-1) k n` products for every block of
rows they multiply at once, and there are as many blocks as `m` divided by their number of rows, and one. -/
theorem C80_mul :
    (∃ x, mzedMulNewtonJohnC cb bs C A B = some x ∧ some x.val = mzedMulNewtonJohn? cb bs C A B ∧
      x.muls ≤ (A.nrows / njBlocksize bs A.w A.nrows + 1) * (A.ncols * ((ff.degree - 1) * B.ncols)) ∧
      x.adds ≤ (A.nrows / njBlocksize bs A.w A.nrows + 1) * (A.ncols * ((ff.degree + 2 ^ ff.degree) * B.ncols)) + A.nrows * A.ncols * B.ncols) ∧
    ∃ x, mzedAddmulNewtonJohnC cb bs C A B = some x ∧ some x.val = mzedAddmulNewtonJohn? cb bs C A B ∧
      x.muls ≤ (A.nrows / njBlocksize bs A.w A.nrows + 1) * (A.ncols * ((ff.degree - 1) * B.ncols)) ∧
      x.adds ≤ (A.nrows / njBlocksize bs A.w A.nrows + 1) * (A.ncols * ((ff.degree + 2 ^ ff.degree) * B.ncols)) + A.nrows * A.ncols * B.ncols := by
  have hm : ∀ clear, ∃ Z, mzedMulInit? C A B clear = some Z ∧ Shape ff.degree A.nrows B.ncols Z := by
    intro clear
    unfold mzedMulInit?
    rw [if_neg (by tauto), if_neg (by tauto)]
    have hs : Shape ff.degree A.nrows B.ncols C := by
      have := rep_shape hC
      rwa [h4, h5] at this
    cases clear
    · exact ⟨C, rfl, hs⟩
    · exact ⟨mzedSetUi C 0#64, rfl, ⟨hs.1, hs.2, hs.3, hs.4⟩⟩
  constructor
  · obtain ⟨Z, hZ, hs⟩ := hm true
    have c := costs_mulNj cb bs (deg_two (ff := ff)) rfl (rep_shape hA) hB.ffEq rfl hs
    unfold mzedMulNewtonJohnC mzedMulNewtonJohn?
    rw [hZ]
    exact ⟨_, rfl, congrArg some c.val, c.muls, c.adds⟩
  · obtain ⟨Z, hZ, hs⟩ := hm false
    have c := costs_mulNj cb bs (deg_two (ff := ff)) rfl (rep_shape hA) hB.ffEq rfl hs
    unfold mzedAddmulNewtonJohnC mzedAddmulNewtonJohn?
    rw [hZ]
    exact ⟨_, rfl, congrArg some c.val, c.muls, c.adds⟩

/-- **C80** as long as `A` has fewer rows than M4RI's block size times the width of an element, that is `(e-1) k n` products. -/
theorem C80_mul_one_block (hbs : A.nrows < A.w * bs) (hr : A.nrows < 2 ^ 30) :
    (∃ x, mzedMulNewtonJohnC cb bs C A B = some x ∧ x.muls ≤ A.ncols * ((ff.degree - 1) * B.ncols)) ∧
    ∃ x, mzedAddmulNewtonJohnC cb bs C A B = some x ∧ x.muls ≤ A.ncols * ((ff.degree - 1) * B.ncols) := by
  have e : A.nrows / njBlocksize bs A.w A.nrows + 1 = 1 := by
    unfold njBlocksize
    rw [if_neg (by omega), Nat.div_eq_of_lt hr]
  obtain ⟨⟨x, a1, -, a2, -⟩, y, b1, -, b2, -⟩ := C80_mul (cb := cb) (bs := bs) hA hB hC h1 h2 h3 h4 h5
  rw [e, Nat.one_mul] at a2 b2
  exact ⟨⟨x, a1, a2⟩, y, b1, b2⟩

end

/-- **C80** `mzed_echelonize_newton_john(A,full)` with `K` tables: besides `e n` products for the tables, each of the at most `n` searches for up to `K` pivots clears up to
`m + 1` rows in each but its first column. -/
theorem C80_echelonize_at_most {cb : Codebook} (hcb : cb.Ok ff.degree) (optK : Nat) (small : Bool) {A : Mzed} {M : Nat → Nat → Elem ff} (h : Rep A M) (full : Bool) :
    (mzedEchelonizeNewtonJohnC cb optK small A full).val = mzedEchelonizeNewtonJohn cb optK small A full ∧
    (mzedEchelonizeNewtonJohnC cb optK small A full).val.2 = rank A.nrows A.ncols M ∧
    (mzedEchelonizeNewtonJohnC cb optK small A full).muls ≤
      A.ncols * (njKK ff.degree optK small * ((A.nrows + 1) * (njKK ff.degree optK small - 1) * A.ncols + ff.degree * A.ncols)) ∧
    (mzedEchelonizeNewtonJohnC cb optK small A full).adds ≤
      A.ncols * (njKK ff.degree optK small * ((A.nrows + 1) * (njKK ff.degree optK small - 1) * A.ncols + (ff.degree + 2 ^ ff.degree + A.nrows) * A.ncols)) := by
  have hT : TabShape (n := A.ncols) ff.degree (njtInit A.ff A.fid A.ncols) := by rw [h.ffEq]; exact njtInit_shape
  have c := costs_njEchLoop cb full (deg_two (ff := ff)) (njKK ff.degree optK small) A.ncols A (fun _ => njtInit A.ff A.fid A.ncols) 0 0
    (njKK ff.degree optK small) le_rfl (Nat.zero_le _) (rep_shape h) fun _ => hT
  have e : mzedEchelonizeNewtonJohnC cb optK small A full =
      njEchLoopC cb full A.ncols A (fun _ => njtInit A.ff A.fid A.ncols) 0 0 (njKK ff.degree optK small) := by
    unfold mzedEchelonizeNewtonJohnC
    rw [h.ffEq]
  have e' : mzedEchelonizeNewtonJohn cb optK small A full =
      njEchLoop cb full A.ncols A (fun _ => njtInit A.ff A.fid A.ncols) 0 0 (njKK ff.degree optK small) := by
    unfold mzedEchelonizeNewtonJohn
    rw [h.ffEq]
  have hv : (mzedEchelonizeNewtonJohnC cb optK small A full).val = mzedEchelonizeNewtonJohn cb optK small A full := by
    rw [e, e']
    exact c.val
  refine ⟨hv, ?_, ?_, ?_⟩
  · rw [hv]
    obtain ⟨R, M', piv, h1, -⟩ := C35_echelonize_newton_john hcb optK small h full
    rw [h1]
  · rw [e]; exact c.muls
  · rw [e]; exact c.adds

/-- **C80** with one table these are `e n^2` products. -/
theorem C80_echelonize_one_table {cb : Codebook} (hcb : cb.Ok ff.degree) (optK : Nat) (small : Bool) (h1 : njKK ff.degree optK small = 1) {A : Mzed} {M : Nat → Nat → Elem ff}
    (h : Rep A M) (full : Bool) :
    (mzedEchelonizeNewtonJohnC cb optK small A full).muls ≤ ff.degree * A.ncols ^ 2 ∧
    (mzedEchelonizeNewtonJohnC cb optK small A full).adds ≤ (ff.degree + 2 ^ ff.degree + A.nrows) * A.ncols ^ 2 := by
  obtain ⟨-, -, h2, h3⟩ := C80_echelonize_at_most hcb optK small h full
  rw [h1] at h2 h3
  simp only [Nat.sub_self, Nat.mul_zero, Nat.zero_mul, Nat.zero_add, Nat.one_mul] at h2 h3
  exact ⟨h2.trans_eq (by ring), h3.trans_eq (by ring)⟩

omit [IsField ff] in
theorem setUi_ncols (A : Mzed) (x : Word) : (mzedSetUi A x).ncols = A.ncols := by
  unfold mzedSetUi
  split_ifs
  · rfl
  · exact forN_keep (f := fun i B => mzedWriteElem B i i x) (fun B : Mzed => B.ncols = A.ncols) (fun _ _ h => h) _ _ rfl

/-- **C80** `mzed_invert_newton_john(NULL,A)` makes the operations of the elimination of an `m × 2n` matrix. -/
theorem C80_invert (cb : Codebook) (optK : Nat) (small : Bool) {A : Mzed} {M : Nat → Nat → Elem ff} (h : Rep A M) :
    (mzedInvertNewtonJohnC cb optK small A).val = mzedInvertNewtonJohn? cb optK small A ∧
    (mzedInvertNewtonJohnC cb optK small A).muls ≤
      (A.ncols + A.ncols) * (njKK ff.degree optK small * ((A.nrows + 1) * (njKK ff.degree optK small - 1) * (A.ncols + A.ncols) + ff.degree * (A.ncols + A.ncols))) ∧
    (mzedInvertNewtonJohnC cb optK small A).adds ≤ (A.ncols + A.ncols) *
      (njKK ff.degree optK small * ((A.nrows + 1) * (njKK ff.degree optK small - 1) * (A.ncols + A.ncols) + (ff.degree + 2 ^ ff.degree + A.nrows) * (A.ncols + A.ncols))) := by
  have hN : (mzedConcat A (mzedSetUi (mzedInit A.ff A.fid A.nrows A.ncols) 1#64)).ncols = A.ncols + A.ncols := congrArg (A.ncols + ·) (setUi_ncols _ _)
  have hS : Shape ff.degree A.nrows (mzedConcat A (mzedSetUi (mzedInit A.ff A.fid A.nrows A.ncols) 1#64)).ncols
      (mzedConcat A (mzedSetUi (mzedInit A.ff A.fid A.nrows A.ncols) 1#64)) :=
    ⟨rfl, rfl, by show A.ff.degree = _; rw [h.ffEq], by show OkW (degreeToW A.ff.degree); rw [h.ffEq]; exact okW_ff⟩
  have hk : njKK A.ff.degree optK small = njKK ff.degree optK small := by rw [h.ffEq]
  have hT : ∀ n, TabShape (n := n) ff.degree (njtInit A.ff A.fid n) := fun n => by rw [h.ffEq]; exact njtInit_shape
  rw [← hN, ← hk]
  unfold mzedInvertNewtonJohnC mzedInvertNewtonJohn?
  generalize mzedSetUi (mzedInit A.ff A.fid A.nrows A.ncols) 1#64 = I at *
  have c := costs_njEchLoop cb true IsField.two_le (njKK A.ff.degree optK small) (mzedConcat A I).ncols _
    (fun _ => njtInit A.ff A.fid (mzedConcat A I).ncols) 0 0 (njKK A.ff.degree optK small) le_rfl (Nat.zero_le _) hS fun _ => hT _
  have c' := costs_map (fun T : Mzed × Nat =>
    if mzedEq I (mzedWindow T.1 0 0 A.nrows A.ncols) then some (mzedSubmatrix T.1 0 A.ncols A.nrows T.1.ncols) else none) c
  exact ⟨c'.val, c'.muls, c'.adds⟩

/-- there are always several tables once `m4ri_opt_k` allows the largest ones -/
theorem njKK_two (small : Bool) {optK : Nat} (h : 7 ≤ optK) : 2 ≤ njKK ff.degree optK small := by
  have h2 := deg_two (ff := ff)
  have h16 := deg_sixteen (ff := ff)
  have e : njKK ff.degree optK small = njKK ff.degree 7 small := by
    unfold njKK
    rw [Nat.min_eq_right h, Nat.min_self]
  rw [e]
  generalize ff.degree = d at *
  interval_cases d <;> cases small <;> decide

/-- **C80** (negation) over every field, whenever there is more than one table, for every even `N` some `N × N` matrix makes `mzed_echelonize_newton_john(A,0)` multiply
more than `N^3 / 8` times. -/
theorem C80_violation (cb : Codebook) (optK : Nat) (small : Bool) (hk : 2 ≤ njKK ff.degree optK small) {m : Nat} (hm : 0 < m) :
    ∃ (A : Mzed) (M : Nat → Nat → Elem ff), Rep A M ∧ A.nrows = 2 * m ∧ A.ncols = 2 * m ∧
      (2 * m) ^ 3 < 8 * (mzedEchelonizeNewtonJohnC cb optK small A false).muls := by
  have h2 := deg_two (ff := ff)
  have h4 : 2 ^ 2 ≤ 2 ^ ff.degree := Nat.pow_le_pow_right (by norm_num) h2
  let a : Elem ff := ⟨2#64, lt_of_lt_of_le (by decide) h4⟩
  have ha : a ≠ 0 := fun h => absurd ((val_eq_zero a).2 h) (show ¬ (2#64 = 0#64) by decide)
  have ha1 : a ≠ 1 := fun h => absurd (congrArg Subtype.val h) (show ¬ (2#64 = 1#64) by decide)
  refine ⟨(stairs a 0 m 0 0).pack, _, pack_rep _, rfl, rfl, ?_⟩
  have h := stairs_loop cb ha ha1 (fid := 0) (m := m) m 0 (2 * m) (fun _ => njtInit ff 0 (2 * m)) (njKK ff.degree optK small) (by omega) (fun _ => hk) le_rfl
  have e : mzedEchelonizeNewtonJohnC cb optK small (stairs a 0 m 0 0).pack false =
      njEchLoopC cb false (2 * m) (stairs a 0 m 0 0).pack (fun _ => njtInit ff 0 (2 * m)) 0 (2 * 0) (njKK ff.degree optK small) := rfl
  rw [e]
  have : (2 * m) ^ 3 < 8 * (m * (m * (m + 1))) := by nlinarith [Nat.mul_pos hm hm]
  omega

/-- **C80** (negation) so it is for every matrix so large that `m4ri_opt_k` returns 7 or more: there is no bound of the form `c n^2`. -/
theorem C80_no_quadratic_bound (cb : Codebook) (optK : Nat) (small : Bool) (hk : 7 ≤ optK) (c : Nat) :
    ∃ (A : Mzed) (M : Nat → Nat → Elem ff), Rep A M ∧ A.nrows = A.ncols ∧ c * A.ncols ^ 2 < (mzedEchelonizeNewtonJohnC cb optK small A false).muls := by
  obtain ⟨A, M, h1, h2, h3, h4⟩ := C80_violation (ff := ff) cb optK small (njKK_two small hk) (m := 4 * c + 1) (by omega)
  refine ⟨A, M, h1, h2.trans h3.symm, ?_⟩
  rw [h3]
  have e : (2 * (4 * c + 1)) ^ 3 = (8 * c + 2) * (2 * (4 * c + 1)) ^ 2 := by ring
  rw [e] at h4
  nlinarith [Nat.zero_le ((2 * (4 * c + 1)) ^ 2)]

-- the number of tables depends on the degree and on what `m4ri_opt_k` returns
example : njKK 16 5 false = 1 ∧ njKK 16 7 false = 2 ∧ njKK 8 7 false = 5 ∧ njKK 2 1 false = 3 := by decide

-- 1000 × 1000 times 1000 × 1000 over GF(2^8) in one block: at most 7 million products instead of 1000 million
example : ∃ ff, ∃ _ : IsField ff, ∃ (A B C : Mzed) (MA MB MC : Nat → Nat → Elem ff), Rep A MA ∧ Rep B MB ∧ Rep C MC ∧ MA 3 4 = 1 ∧ MA 4 3 = 0 ∧
    ∃ x, mzedMulNewtonJohnC grayCode 2048 C A B = some x ∧ x.muls ≤ 7000000 := by
  obtain ⟨ff, h, hd⟩ := exists_aes
  let X : Mat ff := ⟨1000, 1000, 0, fun i j => if i < j then 1 else 0⟩
  have hw : X.pack.w = 8 := by show degreeToW ff.degree = 8; rw [hd]; rfl
  obtain ⟨⟨x, h1, h2⟩, -⟩ := C80_mul_one_block (cb := grayCode) (bs := 2048) (pack_rep X) (pack_rep X) (pack_rep X) rfl rfl rfl rfl rfl
    (by rw [hw]; show 1000 < 8 * 2048; norm_num) (by show 1000 < 2 ^ 30; norm_num)
  have e1 : X.e 3 4 = 1 := @if_pos (3 < 4) _ (by norm_num) (Elem ff) 1 0
  have e2 : X.e 4 3 = 0 := @if_neg (4 < 3) _ (by norm_num) (Elem ff) 1 0
  refine ⟨ff, h, _, _, _, _, _, _, pack_rep X, pack_rep X, pack_rep X, e1, e2, x, h1, ?_⟩
  rw [hd] at h2
  exact h2.trans (by show 1000 * ((8 - 1) * 1000) ≤ 7000000; norm_num)

-- GF(2^8): five tables, so that the elimination of 200 × 200 matrices may take a million products, where the PLE decomposition takes at most 320000
example : ∃ ff, ∃ _ : IsField ff, ∃ cb : Codebook, cb.Ok ff.degree ∧ (∃ (A : Mzed) (M : Nat → Nat → Elem ff), Rep A M ∧ A.nrows = 200 ∧ A.ncols = 200 ∧
    1000000 < (mzedEchelonizeNewtonJohnC cb 7 false A false).muls) ∧
    ∀ (A : Mzed) (M : Nat → Nat → Elem ff), Rep A M → A.nrows = 200 → A.ncols = 200 → ∀ P Q, (mzedPleNewtonJohnC cb A P Q).muls ≤ 320000 := by
  obtain ⟨ff, h, hd⟩ := exists_aes
  refine ⟨ff, h, grayCode, grayCode_ok _, ?_, ?_⟩
  · obtain ⟨A, M, h1, h2, h3, h4⟩ := C80_violation (ff := ff) grayCode 7 false (njKK_two false le_rfl) (m := 100) (by norm_num)
    exact ⟨A, M, h1, h2, h3, by omega⟩
  · intro A M hA h1 h2 P Q
    obtain ⟨⟨_, _, _, _, _, _, _, h6, -⟩, h3, -⟩ := C80_ple (grayCode_ok _) hA P Q
    have h4 : rank A.nrows A.ncols M ≤ A.nrows := h6.le
    rw [h2, hd] at h3
    have h5 : rank A.nrows 200 M ≤ 200 := by rw [h2, h1] at h4; rwa [h1]
    exact h3.trans (by nlinarith)

end M4rie.Props
