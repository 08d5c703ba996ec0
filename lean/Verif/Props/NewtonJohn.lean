import Verif.Proofs.NjEchelon
import Verif.Props.Echelon
import Mathlib.LinearAlgebra.Matrix.NonsingularInverse

/-!
# Properties C21, C22, C35, C37, C49: Newton-John tables and the algorithms using them

The external M4RI Gray codebook enters through `Codebook.Ok e`: `ord` enumerates `0 … 2^e-1`
starting at 0, and `ord (i+1)` arises from `ord i` by flipping bit `inc i`.
-/

namespace M4rie.Props
open M4rie M4rie.Spec

/-! ### the reflected Gray code satisfies the codebook contract for every size -/

/-- number of trailing ones of `i`, i.e. trailing zeros of `i+1` -/
def grayInc (i : Nat) : Nat := if h : i % 2 = 0 then 0 else grayInc (i / 2) + 1
termination_by i
decreasing_by omega

/-- the reflected Gray code -/
def grayCode : Codebook := ⟨fun i => i ^^^ (i / 2), grayInc⟩

theorem xor_mod_two (a b : Nat) : (a ^^^ b) % 2 = (a + b) % 2 := by
  have h := Nat.testBit_xor a b 0
  simp only [Nat.testBit_zero] at h
  have ha := Nat.mod_two_eq_zero_or_one a
  have hb := Nat.mod_two_eq_zero_or_one b
  have hc := Nat.mod_two_eq_zero_or_one (a ^^^ b)
  rcases ha with ha | ha <;> rcases hb with hb | hb <;> rcases hc with hc | hc <;> rw [ha, hb, hc] at h <;> first | omega | (exact absurd h (by decide))

theorem gray_div (i : Nat) : grayCode.ord i / 2 = grayCode.ord (i / 2) := by
  show (i ^^^ (i / 2)) / 2 = i / 2 ^^^ (i / 2 / 2)
  rw [Nat.xor_div_two]

theorem gray_mod (i : Nat) : grayCode.ord i % 2 = (i + i / 2) % 2 := by
  show (i ^^^ (i / 2)) % 2 = _
  rw [xor_mod_two]

theorem gray_step : ∀ i, grayCode.ord (i + 1) = grayCode.ord i ^^^ 2 ^ grayInc i := by
  intro i
  induction i using Nat.strong_induction_on with
  | _ i ih =>
    have key : ∀ a b : Nat, a / 2 = b / 2 → a % 2 = b % 2 → a = b := by intro a b; omega
    rw [grayInc]
    split_ifs with h
    · apply key
      · rw [Nat.xor_div_two, gray_div, gray_div, show (i + 1) / 2 = i / 2 by omega]; simp
      · rw [xor_mod_two, Nat.add_mod, gray_mod, gray_mod]; omega
    · apply key
      · rw [Nat.xor_div_two, gray_div, gray_div, show (i + 1) / 2 = i / 2 + 1 by omega, ih (i / 2) (by omega), Nat.pow_succ,
          Nat.mul_div_cancel _ (by norm_num : 0 < 2)]
      · rw [xor_mod_two, Nat.add_mod, gray_mod, gray_mod, Nat.pow_succ, Nat.mul_mod_left]; omega

theorem grayInc_lt : ∀ e i, i + 1 < 2 ^ e → grayInc i < e := by
  intro e
  induction e with
  | zero => intro i h; simp at h
  | succ e ih =>
    intro i h
    rw [grayInc]
    split_ifs with h0
    · omega
    · have := ih (i / 2) (by rw [Nat.pow_succ] at h; omega)
      omega

theorem gray_inj : ∀ i k, grayCode.ord i = grayCode.ord k → i = k := by
  intro i
  induction i using Nat.strong_induction_on with
  | _ i ih =>
    intro k h
    rcases Nat.eq_zero_or_pos i with h0 | h0
    · subst h0
      by_contra hk
      have : ∀ k, grayCode.ord k = 0 → k = 0 := by
        intro k
        induction k using Nat.strong_induction_on with
        | _ k ihk =>
          intro h
          by_contra hk
          have h1 := gray_div k
          rw [h, Nat.zero_div] at h1
          have h2 := ihk (k / 2) (by omega) h1.symm
          have h3 := gray_mod k
          rw [h] at h3
          omega
      exact hk (this k (by rw [← h]; rfl)).symm
    · have h1 := gray_div i
      rw [h, gray_div] at h1
      have h2 := ih (i / 2) (by omega) (k / 2) h1.symm
      have h3 := gray_mod i
      rw [h, gray_mod] at h3
      omega

/-- the codebook contract is satisfiable for every table size -/
theorem grayCode_ok (e : Nat) : grayCode.Ok e where
  zero := rfl
  lt := fun i hi => Nat.xor_lt_two_pow hi (by omega)
  inj := fun i k _ _ h => gray_inj i k h
  inc := fun i hi => ⟨grayInc_lt e i hi, gray_step i⟩

variable {ff : Gf2e} [IsField ff]

/-! ### C21: tables -/

/-- the states a table object for `ncols = n` can be in: fresh from `njt_mzed_init`, or after any sequence of
`mzed_make_table` calls (with different matrices, rows and starting columns) -/
inductive TableState (cb : Codebook) (ff : Gf2e) [IsField ff] (n : Nat) : Njt → Prop
  | init (fid : Nat) : TableState cb ff n (njtInit ff fid n)
  | make {T : Njt} {A : Mzed} {M : Nat → Nat → Elem ff} (r c : Nat) : TableState cb ff n T → Rep A M → A.ncols = n → c < n →
      TableState cb ff n (mzedMakeTable cb T A r c)

theorem TableState.ok {cb : Codebook} (hcb : cb.Ok ff.degree) {n : Nat} {T : Njt} (h : TableState cb ff n T) :
    ∃ XM XT : Mat ff, NjtOk ff n T XM XT := by
  induction h with
  | init fid => exact njtInit_ok fid n
  | @make T A M r c _ hA hn hc ih =>
    obtain ⟨XM, XT, hT⟩ := ih
    subst hn
    obtain ⟨XM', XT', h1, -⟩ := mzedMakeTable_spec hcb (⟨A.nrows, A.ncols, A.fid, M⟩ : Mat ff) r c hT hc
    rw [← hA.eq_pack'] at h1
    exact ⟨_, _, h1⟩

/-- **C21** `mzed_make_table(T,A,r,c)` into a table object in any state it can be in after any history of
earlier `mzed_make_table` calls: for every field element `x` the index `L[x]` is a valid row, and that row is
`x*A[r]` in the columns `c ≤ j < ncols`; it is zero in the columns before `c` that lie in the word of
column `c` or the word before it (the only ones callers read), and past the last column. -/
theorem C21_make_table {cb : Codebook} (hcb : cb.Ok ff.degree) {T : Njt} {A : Mzed} {M : Nat → Nat → Elem ff} (hA : Rep A M)
    (hT : TableState cb ff A.ncols T) (r c : Nat) (hc : c < A.ncols) :
    ∃ MT : Nat → Nat → Elem ff, Rep (mzedMakeTable cb T A r c).T MT ∧ (mzedMakeTable cb T A r c).T.nrows = 2 ^ ff.degree ∧
      (mzedMakeTable cb T A r c).T.ncols = A.ncols ∧
      (∀ x : Elem ff, (mzedMakeTable cb T A r c).L x.1.toNat < 2 ^ ff.degree) ∧
      (∀ x : Elem ff, ∀ j, c ≤ j → j < A.ncols → MT ((mzedMakeTable cb T A r c).L x.1.toNat) j = x * M r j) ∧
      (∀ x : Elem ff, ∀ j, (64 / A.w) * (c / (64 / A.w) - 1) ≤ j → j < c → MT ((mzedMakeTable cb T A r c).L x.1.toNat) j = 0) ∧
      (∀ i j, A.ncols ≤ j → MT i j = 0) := by
  obtain ⟨XM, XT, hN⟩ := hT.ok hcb
  obtain ⟨XM', XT', h1, h2, -, -⟩ := mzedMakeTable_spec hcb (⟨A.nrows, A.ncols, A.fid, M⟩ : Mat ff) r c hN hc
  rw [← hA.eq_pack'] at h1 h2
  refine ⟨XT'.e, by rw [h1.Teq]; exact pack_rep _, by rw [h1.Teq]; exact h1.Trows, by rw [h1.Teq]; exact h1.Tcols, h2.lt, ?_, ?_, h1.T0⟩
  · intro x j hj1 hj2
    rw [h2.row x j (le_trans (njLo_le c) hj1), if_pos ⟨hj1, hj2⟩]
  · intro x j hj1 hj2
    rw [h2.row x j (by unfold njLo; rw [← hA.wEq]; exact hj1), if_neg (by omega)]

-- a table over GF(2^8) for rows of length 100, used for column 0 and then reused from column 37 on
example : ∃ ff, ∃ _ : IsField ff, ∃ cb : Codebook, cb.Ok ff.degree ∧ ∃ (T : Njt) (A : Mzed) (M : Nat → Nat → Elem ff), Rep A M ∧ M 1 50 = 1 ∧
    TableState cb ff A.ncols (mzedMakeTable cb T A 2 0) ∧ 37 < A.ncols := by
  obtain ⟨ff, h, hd⟩ := exists_aes
  exact ⟨ff, h, grayCode, grayCode_ok _, njtInit ff 0 100, _, _, pack_rep ⟨3, 100, 0, fun _ _ => 1⟩, rfl,
    .make 2 0 (.init 0) (pack_rep ⟨3, 100, 0, fun _ _ => 1⟩) rfl (by show 0 < 100; norm_num), by show 37 < 100; norm_num⟩

/-! ### C22: multiplication -/

/-- **C22** `mzed_mul_newton_john`: `C = A*B`, for every number of rows and columns and every
M4RI blocksize at least one element wide. -/
theorem C22_mul_newton_john {cb : Codebook} (hcb : cb.Ok ff.degree) {bs : Nat} (hbs : 16 ≤ bs)
    {A B C : Mzed} {MA MB MC : Nat → Nat → Elem ff} (hA : Rep A MA) (hB : Rep B MB) (hC : Rep C MC)
    (h1 : A.ncols = B.nrows) (h2 : A.fid = B.fid) (h3 : C.fid = A.fid) (h4 : C.nrows = A.nrows) (h5 : C.ncols = B.ncols)
    (hn : 0 < B.ncols) :
    ∃ R, mzedMulNewtonJohn? cb bs C A B = some R ∧ SameDim R C ∧ Rep R (fun i j => if i < C.nrows ∧ j < C.ncols then
      ∑ k ∈ Finset.range A.ncols, MA i k * MB k j else MC i j) := by
  unfold mzedMulNewtonJohn? mzedMulInit?
  rw [if_neg (by tauto), if_neg (by tauto), if_pos rfl]
  have eC := hC.eq_pack'
  have eA := hA.eq_pack'
  have eB := hB.eq_pack'
  have hs := setUi_pack (⟨C.nrows, C.ncols, C.fid, MC⟩ : Mat ff) 0
  rw [← eC] at hs
  have hm := mulNewtonJohnAcc_pack hcb bs (le_trans ((okW_ff (ff := ff)).le) hbs) ((⟨C.nrows, C.ncols, C.fid, MC⟩ : Mat ff).scalar 0)
    ⟨A.nrows, A.ncols, A.fid, MA⟩ ⟨B.nrows, B.ncols, B.fid, MB⟩ hn h5 h4
  rw [← hs, ← eA, ← eB] at hm
  refine ⟨_, rfl, ?_, ?_⟩
  · show SameDim (mzedMulNewtonJohnAcc cb bs (mzedSetUi C (0 : Elem ff).1) A B) C
    rw [hm]; exact ⟨rfl, rfl, rfl⟩
  · show Rep (mzedMulNewtonJohnAcc cb bs (mzedSetUi C (0 : Elem ff).1) A B) _
    rw [hm]
    refine Eq.subst (motive := fun f => Rep _ f) ?_ (pack_rep _)
    funext i j
    unfold Mat.addMulM Mat.scalar
    by_cases hij : i < C.nrows ∧ j < C.ncols
    · simp [hij]
    · simp [hij]

/-- **C22** `mzed_addmul_newton_john`: `C += A*B`. -/
theorem C22_addmul_newton_john {cb : Codebook} (hcb : cb.Ok ff.degree) {bs : Nat} (hbs : 16 ≤ bs)
    {A B C : Mzed} {MA MB MC : Nat → Nat → Elem ff} (hA : Rep A MA) (hB : Rep B MB) (hC : Rep C MC)
    (h1 : A.ncols = B.nrows) (h2 : A.fid = B.fid) (h3 : C.fid = A.fid) (h4 : C.nrows = A.nrows) (h5 : C.ncols = B.ncols)
    (hn : 0 < B.ncols) :
    ∃ R, mzedAddmulNewtonJohn? cb bs C A B = some R ∧ SameDim R C ∧ Rep R (fun i j => if i < C.nrows ∧ j < C.ncols then
      MC i j + ∑ k ∈ Finset.range A.ncols, MA i k * MB k j else MC i j) := by
  unfold mzedAddmulNewtonJohn? mzedMulInit?
  rw [if_neg (by tauto), if_neg (by tauto), if_neg (by simp)]
  have eC := hC.eq_pack'
  have eA := hA.eq_pack'
  have eB := hB.eq_pack'
  have hm := mulNewtonJohnAcc_pack hcb bs (le_trans ((okW_ff (ff := ff)).le) hbs) (⟨C.nrows, C.ncols, C.fid, MC⟩ : Mat ff)
    ⟨A.nrows, A.ncols, A.fid, MA⟩ ⟨B.nrows, B.ncols, B.fid, MB⟩ hn h5 h4
  rw [← eC, ← eA, ← eB] at hm
  refine ⟨_, rfl, ?_, ?_⟩
  · show SameDim (mzedMulNewtonJohnAcc cb bs C A B) C
    rw [hm]; exact ⟨rfl, rfl, rfl⟩
  · show Rep (mzedMulNewtonJohnAcc cb bs C A B) _
    rw [hm]
    exact pack_rep _

-- 1000x13 times 13x70 over GF(2^8): several giant steps, remainder columns, several words per row
example : ∃ ff, ∃ _ : IsField ff, ∃ cb : Codebook, cb.Ok ff.degree ∧ ∃ (A B C : Mzed) (MA MB MC : Nat → Nat → Elem ff), Rep A MA ∧ Rep B MB ∧
    Rep C MC ∧ A.ncols = B.nrows ∧ A.fid = B.fid ∧ C.fid = A.fid ∧ C.nrows = A.nrows ∧ C.ncols = B.ncols ∧ 0 < B.ncols ∧
    MA 3 4 = 1 ∧ MC 5 5 = 1 := by
  obtain ⟨ff, h, hd⟩ := exists_aes
  exact ⟨ff, h, grayCode, grayCode_ok _, _, _, _, _, _, _, pack_rep ⟨1000, 13, 0, fun _ _ => 1⟩, pack_rep ⟨13, 70, 0, fun i j => if i = j then 1 else 0⟩,
    pack_rep ⟨1000, 70, 0, fun i _ => if i = 5 then 1 else 0⟩, rfl, rfl, rfl, rfl, rfl, by show 0 < 70; norm_num, rfl, rfl⟩

/-! ### C49 -/

/-- **C49** whatever `m4ri_opt_k` returns and whatever the cache size test says, between 1 and 6 tables are
used and the multipliers of one row fit in one 64-bit read. -/
theorem C49_table_count (degree optK : Nat) (small : Bool) (h2 : 2 ≤ degree) (h16 : degree ≤ 16) :
    1 ≤ njKK degree optK small ∧ njKK degree optK small ≤ 6 ∧ njKK degree optK small * degreeToW degree ≤ 64 :=
  njKK_bounds degree optK small h2 h16

example : njKK 8 7 false = 5 ∧ njKK 2 7 true = 6 ∧ njKK 16 1 true = 1 := by decide

/-! ### C35: elimination -/

/-- **C35** `mzed_echelonize_newton_john(A,full)` returns the rank and leaves an echelon form (reduced if
`full`) of the same row space, for every table count. -/
theorem C35_echelonize_newton_john {cb : Codebook} (hcb : cb.Ok ff.degree) (optK : Nat) (small : Bool) {A : Mzed}
    {M : Nat → Nat → Elem ff} (h : Rep A M) (full : Bool) :
    ∃ (R : Mzed) (M' : Nat → Nat → Elem ff) (piv : Nat → Nat),
      mzedEchelonizeNewtonJohn cb optK small A full = (R, rank A.nrows A.ncols M) ∧ SameDim R A ∧ Rep R M' ∧
      IsEchelon A.nrows A.ncols (rank A.nrows A.ncols M) M' piv ∧
      (full = true → IsRref A.nrows A.ncols (rank A.nrows A.ncols M) M' piv) ∧
      rowSpan A.nrows A.ncols M' = rowSpan A.nrows A.ncols M ∧
      (∀ i j, A.nrows ≤ i ∨ A.ncols ≤ j → M' i j = M i j) := by
  obtain ⟨X, r, piv, h1, h2, h5⟩ := echelonizeNj_inv hcb optK small (⟨A.nrows, A.ncols, A.fid, M⟩ : Mat ff) full
  rw [← h.eq_pack'] at h1
  have hr : rank A.nrows A.ncols M = r := by
    have := h5.echelon.rank_eq
    have hs := h5.span
    unfold rank at this ⊢
    rw [hs] at this
    exact this
  rw [hr]
  exact ⟨X.pack, X.e, piv, h1, ⟨h2.nrows, h2.ncols, h2.fid⟩, pack_rep X, h5.echelon, h5.rref, h5.span, h5.frame⟩

/-- **C35** with `full`, the Newton-John and the naive algorithm leave the same matrix, bit for bit. -/
theorem C35_agrees_with_naive {cb : Codebook} (hcb : cb.Ok ff.degree) (optK : Nat) (small : Bool) {A : Mzed}
    {M : Nat → Nat → Elem ff} (h : Rep A M) :
    mzedEchelonizeNewtonJohn cb optK small A true = mzedEchelonizeNaive A true := by
  obtain ⟨R, M', piv, h1, h2, h3, h4, h5, h6, h7⟩ := C35_echelonize_newton_john hcb optK small h true
  obtain ⟨S, N', qiv, g1, g2, g3, g4, g5, g6, g7⟩ := C34_echelonize_naive h true
  rw [h1, g1]
  have hu := (h5 rfl).unique (g5 rfl) (by rw [h6, g6])
  have : M' = N' := by
    funext i j
    by_cases hij : i < A.nrows ∧ j < A.ncols
    · exact hu.2.2 i hij.1 j hij.2
    · rw [h7 i j (by omega), g7 i j (by omega)]
  rw [h3.eq_pack h2, g3.eq_pack g2, this]

example : ∃ ff, ∃ _ : IsField ff, ∃ cb : Codebook, cb.Ok ff.degree ∧ ∃ (A : Mzed) (M : Nat → Nat → Elem ff), Rep A M ∧ A.nrows = 30 ∧
    A.ncols = 45 ∧ M 0 0 = 0 ∧ M 1 1 = 1 := by
  obtain ⟨ff, h, hd⟩ := exists_aes
  exact ⟨ff, h, grayCode, grayCode_ok _, _, _, pack_rep ⟨30, 45, 0, fun i j => if i * j = 0 then 0 else 1⟩, rfl, rfl, by simp, by simp⟩

/-! ### C37: inversion -/

section
variable {K : Type*} [Field K]

/-- as a Mathlib matrix -/
def toMat (n : Nat) (A : Nat → Nat → K) : Matrix (Fin n) (Fin n) K := Matrix.of fun i j => A i j

theorem toMat_mul {n : Nat} (A B : Nat → Nat → K) (i j : Fin n) : (toMat n A * toMat n B) i j = ∑ k : Fin n, A i k * B k j := by
  rw [Matrix.mul_apply]; rfl

/-- the block matrix `[A | B]` -/
def hcat (n : Nat) (A B : Nat → Nat → K) : Nat → Nat → K := fun i j => if j < n then A i j else B i (j - n)

theorem sum_hcat {n : Nat} (c : Fin n → K) (A B : Nat → Nat → K) (j : Fin (n + n)) :
    (∑ i, c i • rowVec (n + n) (hcat n A B) i) j =
      if h : j.1 < n then ∑ i, c i * A i j else ∑ i, c i * B i (j - n) := by
  simp only [Finset.sum_apply, Pi.smul_apply, smul_eq_mul, rowVec, hcat]
  split_ifs <;> rfl

theorem rref_one {n : Nat} (N : Nat → Nat → K) :
    IsRref n (n + n) n (hcat n (fun i j => if i = j then 1 else 0) N) (fun i => i) where
  le := le_rfl
  lt := fun i hi => by omega
  mono := fun i k h _ => h
  one := fun i hi => by simp [hcat, hi]
  left := fun i hi j hj => by simp [hcat, show j < n by omega, show ¬ i = j by omega]
  zero := fun i h1 h2 => by omega
  above := fun i hi k _ hki => by simp [hcat, hi, hki]

/-- if `[1|N]` is row equivalent to `[A|1]` then `N` is the inverse of `A` -/
theorem inv_of_span {n : Nat} {A N : Nat → Nat → K}
    (h : rowSpan n (n + n) (hcat n (fun i j => if i = j then 1 else 0) N) ≤ rowSpan n (n + n) (hcat n A (fun i j => if i = j then 1 else 0))) :
    toMat n N * toMat n A = 1 := by
  ext i j
  have hm := h (rowVec_mem i.2)
  rw [mem_rowSpan] at hm
  obtain ⟨c, hc⟩ := hm
  have hcN : ∀ k : Fin n, c k = N i k := by
    intro k
    have := congrFun hc ⟨n + k, by omega⟩
    rw [sum_hcat] at this
    rw [dif_neg (by simp), Finset.sum_eq_single k] at this
    · simpa [rowVec, hcat] using this
    · intro b _ hb
      have : b.1 ≠ k.1 := fun h => hb (Fin.ext h)
      simp [this]
    · intro hx; exact absurd (Finset.mem_univ _) hx
  have := congrFun hc ⟨j, by omega⟩
  rw [sum_hcat, dif_pos (by simp)] at this
  rw [toMat_mul, Matrix.one_apply]
  simp only [rowVec, hcat, Fin.is_lt, if_true] at this
  rw [show (if i = j then (1 : K) else 0) = if (i : Nat) = j then 1 else 0 by simp [Fin.ext_iff]]
  rw [← this]
  exact Finset.sum_congr rfl fun k _ => by rw [hcN k]

/-- conversely -/
theorem span_of_inv {n : Nat} {A N : Nat → Nat → K}
    (h : toMat n N * toMat n A = 1) :
    rowSpan n (n + n) (hcat n (fun i j => if i = j then 1 else 0) N) = rowSpan n (n + n) (hcat n A (fun i j => if i = j then 1 else 0)) := by
  have h' := mul_eq_one_comm.1 h
  have e1 : ∀ i j : Fin n, ∑ k : Fin n, N i k * A k j = if (i : Nat) = j then 1 else 0 := by
    intro i j
    have := congrFun (congrFun h i) j
    rw [toMat_mul, Matrix.one_apply] at this
    rw [this]; simp [Fin.ext_iff]
  have e2 : ∀ i j : Fin n, ∑ k : Fin n, A i k * N k j = if (i : Nat) = j then 1 else 0 := by
    intro i j
    have := congrFun (congrFun h' i) j
    rw [toMat_mul, Matrix.one_apply] at this
    rw [this]; simp [Fin.ext_iff]
  apply le_antisymm
  · apply rowSpan_le
    intro i hi
    rw [mem_rowSpan]
    refine ⟨fun k => N i k, ?_⟩
    funext j
    rw [sum_hcat]
    split_ifs with hj
    · have := e1 ⟨i, hi⟩ ⟨j, hj⟩
      simp only at this
      rw [this]; simp [rowVec, hcat, hj]
    · rw [Finset.sum_eq_single ⟨j - n, by omega⟩]
      · simp [rowVec, hcat, hj]
      · intro b _ hb
        have : b.1 ≠ j - n := fun h => hb (Fin.ext h)
        simp [this]
      · intro hx; exact absurd (Finset.mem_univ _) hx
  · apply rowSpan_le
    intro i hi
    rw [mem_rowSpan]
    refine ⟨fun k => A i k, ?_⟩
    funext j
    rw [sum_hcat]
    split_ifs with hj
    · rw [Finset.sum_eq_single ⟨j, hj⟩]
      · simp [rowVec, hcat, hj]
      · intro b _ hb
        have : b.1 ≠ j := fun h => hb (Fin.ext h)
        simp [this]
      · intro hx; exact absurd (Finset.mem_univ _) hx
    · have := e2 ⟨i, hi⟩ ⟨j - n, by omega⟩
      simp only at this
      rw [this]; simp [rowVec, hcat, hj]
end

theorem sum_fin_range {n : Nat} {K : Type*} [AddCommMonoid K] (f : Nat → K) : ∑ k ∈ Finset.range n, f k = ∑ k : Fin n, f k :=
  Finset.sum_range f

/-- `N` is a two-sided inverse of `M` on `n × n` -/
def IsInverse {K : Type*} [Field K] (n : Nat) (M N : Nat → Nat → K) : Prop :=
  ∀ i j, i < n → j < n → (∑ k ∈ Finset.range n, M i k * N k j = if i = j then 1 else 0) ∧
    (∑ k ∈ Finset.range n, N i k * M k j = if i = j then 1 else 0)

theorem isInverse_iff {K : Type*} [Field K] {n : Nat} {M N : Nat → Nat → K} :
    IsInverse n M N ↔ toMat n N * toMat n M = 1 := by
  constructor
  · intro h
    ext i j
    rw [toMat_mul, Matrix.one_apply]
    have := (h i j i.2 j.2).2
    rw [sum_fin_range] at this
    rw [this]; simp [Fin.ext_iff]
  · intro h i j hi hj
    have h' := mul_eq_one_comm.1 h
    have a1 := congrFun (congrFun h ⟨i, hi⟩) ⟨j, hj⟩
    have a2 := congrFun (congrFun h' ⟨i, hi⟩) ⟨j, hj⟩
    rw [toMat_mul, Matrix.one_apply] at a1 a2
    rw [sum_fin_range, sum_fin_range, a1, a2]
    simp [Fin.ext_iff]

/-- **C37** `mzed_invert_newton_john(NULL,A)` on a square matrix: it returns a two-sided inverse if there is
one, and otherwise dies. -/
theorem C37_invert {cb : Codebook} (hcb : cb.Ok ff.degree) (optK : Nat) (small : Bool) {A : Mzed}
    {M : Nat → Nat → Elem ff} (h : Rep A M) (hsq : A.nrows = A.ncols) :
    (∀ B, mzedInvertNewtonJohn? cb optK small A = some B →
      SameDim B A ∧ ∃ N : Nat → Nat → Elem ff, Rep B N ∧ IsInverse A.nrows M N) ∧
    ((∃ N : Nat → Nat → Elem ff, IsInverse A.nrows M N) → ∃ B, mzedInvertNewtonJohn? cb optK small A = some B) := by
  obtain ⟨n, hn⟩ : ∃ n, A.nrows = n := ⟨_, rfl⟩
  have hn2 : A.ncols = n := by omega
  have hI0 : Rep (mzedInit A.ff A.fid A.nrows A.ncols) (fun _ _ => (0 : Elem ff)) := by rw [h.ffEq]; exact rep_init ..
  obtain ⟨hI, hId⟩ := hI0.setUi (1 : Elem ff)
  have e1 : ((1 : Elem ff).1) = 1#64 := rfl
  rw [e1] at hI hId
  obtain ⟨c1, c2, hT⟩ := C43_concat h hI
  obtain ⟨R, M', piv, h1, h2, h3, h4, h5, h6, h7⟩ := C35_echelonize_newton_john hcb optK small hT true
  have hIr : (mzedSetUi (mzedInit A.ff A.fid A.nrows A.ncols) 1#64).nrows = A.nrows := hId.nrows
  have hIc : (mzedSetUi (mzedInit A.ff A.fid A.nrows A.ncols) 1#64).ncols = A.ncols := hId.ncols
  have hir : (mzedInit A.ff A.fid A.nrows A.ncols).nrows = A.nrows := rfl
  have hic : (mzedInit A.ff A.fid A.nrows A.ncols).ncols = A.ncols := rfl
  rw [hir, hic] at hI
  have hdT : (mzedConcat A (mzedSetUi (mzedInit A.ff A.fid A.nrows A.ncols) 1#64)).ncols = n + n := by rw [c2, hIc, hn2]
  have hdR : R.ncols = n + n := by rw [h2.ncols, hdT]
  -- the input is `[M | 1]`
  have hspan : rowSpan n (n + n) M' = rowSpan n (n + n) (hcat n M (fun i j => if i = j then 1 else 0)) := by
    rw [c1, hdT, hn] at h6
    rw [h6]
    apply rowSpan_congr
    intro i hi j hj
    unfold hcat
    by_cases hjn : j < n
    · rw [if_pos ⟨by omega, by omega⟩, if_pos hjn]
    · rw [if_neg (by omega), if_pos ⟨by omega, by have := hIc; simp only [hn, hn2] at this ⊢; omega⟩, if_neg hjn]
      rw [hn2]
      exact if_pos ⟨hi, show j - n < n by omega⟩
  have hwin : Rep (mzedWindow R 0 0 A.nrows A.ncols) (fun i j => M' (0 + i) (0 + j)) := C43_window h3 0 0 _ _ (by simp)
  have hcmp := C19_cmp hI hwin
  rw [hIr, hIc, hn, hn2] at hcmp
  have hcmp' : mzedEq (mzedSetUi (mzedInit A.ff A.fid A.nrows A.ncols) 1#64) (mzedWindow R 0 0 A.nrows A.ncols) = true ↔
      ∀ i j, i < n → j < n → M' i j = if i = j then 1 else 0 := by
    have ew : mzedWindow R 0 0 A.nrows A.ncols = mzedWindow R 0 0 n n := by rw [hn, hn2]
    rw [hn, hn2]
    refine hcmp.trans ?_
    constructor
    · rintro ⟨-, -, h⟩ i j hi hj
      have := h i j hi hj
      simp only [hi, hj, Nat.zero_add] at this
      simpa using this.symm
    · intro h
      refine ⟨rfl, rfl, fun i j hi hj => ?_⟩
      simp only [hi, hj, Nat.zero_add, h i j hi hj]
      simp
  have hval : mzedInvertNewtonJohn? cb optK small A =
      if mzedEq (mzedSetUi (mzedInit A.ff A.fid A.nrows A.ncols) 1#64) (mzedWindow R 0 0 A.nrows A.ncols) = true then
        some (mzedSubmatrix R 0 A.ncols A.nrows R.ncols) else none := by
    unfold mzedInvertNewtonJohn?
    simp only [h1]
  constructor
  · intro B hB
    rw [hval] at hB
    by_cases heq : mzedEq (mzedSetUi (mzedInit A.ff A.fid A.nrows A.ncols) 1#64) (mzedWindow R 0 0 A.nrows A.ncols) = true
    · rw [if_pos heq] at hB
      have hone := hcmp'.1 heq
      obtain ⟨s1, s2, s3⟩ := C43_submatrix h3 0 A.ncols A.nrows R.ncols
      have hBe := Option.some.inj hB
      rw [hBe] at s1 s2 s3
      refine ⟨⟨by rw [s1]; rfl, by rw [s2]; omega, by rw [← hBe]; exact h2.fid⟩, _, s3, ?_⟩
      have hinv := inv_of_span (A := M) (N := fun i j => M' i (n + j)) (n := n) (by
        rw [← hspan]
        apply le_of_eq
        apply rowSpan_congr
        intro i hi j hj
        unfold hcat
        split_ifs with hjn
        · rw [hone i j hi hjn]
        · show M' i (n + (j - n)) = _
          rw [show n + (j - n) = j by omega])
      have := isInverse_iff.2 hinv
      intro i j hi hj
      obtain ⟨a1, a2⟩ := this i j (by omega) (by omega)
      rw [hn]
      refine ⟨Eq.trans ?_ a1, Eq.trans ?_ a2⟩
      · refine Finset.sum_congr rfl fun k hk => ?_
        rw [Finset.mem_range] at hk
        congr 1
        beta_reduce
        rw [if_pos (by omega), hn2, Nat.zero_add]
      · refine Finset.sum_congr rfl fun k hk => ?_
        rw [Finset.mem_range] at hk
        congr 1
        beta_reduce
        rw [if_pos (by omega), hn2, Nat.zero_add]
    · rw [if_neg heq] at hB; exact absurd hB (by simp)
  · rintro ⟨N, hN⟩
    rw [hn] at hN
    have hs := span_of_inv (isInverse_iff.1 hN)
    have h5' := h5 rfl
    rw [c1, hdT, hn] at h5'
    have hu := h5'.unique (rref_one N) (by rw [hspan, hs])
    refine ⟨mzedSubmatrix R 0 A.ncols A.nrows R.ncols, ?_⟩
    rw [hval]
    refine if_pos (hcmp'.2 ?_)
    intro i j hi hj
    rw [hu.2.2 i hi j (by omega)]
    simp [hcat, hj]

/-- **C37** singular input dies -/
theorem C37_singular_dies {cb : Codebook} (hcb : cb.Ok ff.degree) (optK : Nat) (small : Bool) {A : Mzed}
    {M : Nat → Nat → Elem ff} (h : Rep A M) (hsq : A.nrows = A.ncols) (hs : ¬ ∃ N : Nat → Nat → Elem ff, IsInverse A.nrows M N) :
    mzedInvertNewtonJohn? cb optK small A = none := by
  rcases hx : mzedInvertNewtonJohn? cb optK small A with _ | B
  · rfl
  · obtain ⟨_, N, _, hN⟩ := (C37_invert hcb optK small h hsq).1 B hx
    exact absurd ⟨N, hN⟩ hs

-- an invertible 2x2 matrix that needs a row swap: [0 1; 1 1], its inverse is [1 1; 1 0]
example : ∃ ff, ∃ _ : IsField ff, ∃ cb : Codebook, cb.Ok ff.degree ∧ ∃ (A : Mzed) (M : Nat → Nat → Elem ff), Rep A M ∧ A.nrows = A.ncols ∧
    ∃ N, IsInverse A.nrows M N := by
  obtain ⟨ff, h, hd⟩ := exists_aes
  have h2 : (1 : Elem ff) + 1 = 0 := by apply Elem.ext'; show (1#64 ^^^ 1#64 : Word) = 0#64; decide
  have h2' : (2 : Elem ff) = 0 := by rw [← one_add_one_eq_two]; exact h2
  refine ⟨ff, h, grayCode, grayCode_ok _, _, _, pack_rep ⟨2, 2, 0, fun i j => if i = 0 ∧ j = 0 then 0 else 1⟩, rfl,
    fun i j => if i = 1 ∧ j = 1 then 0 else 1, ?_⟩
  intro i j hi hj
  have hi : i < 2 := hi
  have hj : j < 2 := hj
  interval_cases i <;> interval_cases j <;> simp [Mat.pack, Finset.sum_range_succ, h2']

end M4rie.Props
