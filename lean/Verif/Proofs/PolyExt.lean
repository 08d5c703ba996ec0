import Mathlib.LinearAlgebra.Vandermonde
import Verif.Proofs.MzdPoly
import Verif.Props.NewtonJohn
import Verif.Proofs.SliceRow

/-! `_mzd_poly_addmul_ext1`: evaluation and interpolation. -/

namespace M4rie
open Spec Finset Props

section
variable {ff : Gf2e} [IsField ff]

/-- GF(2) inside the field -/
def emb : Bool →+* Elem ff where
  toFun b := if b = true then 1 else 0
  map_one' := rfl
  map_zero' := rfl
  map_mul' a b := by
    cases a <;> cases b
    · exact (mul_zero _).symm
    · exact (zero_mul _).symm
    · exact (mul_zero _).symm
    · exact (mul_one _).symm
  map_add' a b := by
    cases a <;> cases b
    · exact (add_zero _).symm
    · exact (zero_add _).symm
    · exact (add_zero _).symm
    · have : (1 : Elem ff) + 1 = 0 := by
        apply Elem.ext'
        show (1#64 ^^^ 1#64 : Word) = 0#64
        rfl
      exact this.symm

theorem ebit_mul_emb (k : Nat) (x : Elem ff) (b : Bool) : ebit k (x * emb b) = b * ebit k x := by
  cases b
  · rw [show (emb false : Elem ff) = 0 from rfl, mul_zero, map_zero]; exact (zero_mul _).symm
  · rw [show (emb true : Elem ff) = 1 from rfl, mul_one]; exact (one_mul _).symm

theorem ebit_emb (k : Nat) (b : Bool) : ebit k (emb b : Elem ff) = (decide (k = 0) && b) := by
  cases b
  · rw [show (emb false : Elem ff) = 0 from rfl, map_zero, Bool.and_false]; rfl
  · rw [Bool.and_true, ebit_apply]
    show (1#64 : Word).getLsbD k = _
    rw [BitVec.getLsbD_one]
    by_cases h : k = 0 <;> simp [h]

/-- the interpolation points -/
def pt (i : Nat) : Elem ff := if h : (BitVec.ofNat 64 i).toNat < 2 ^ ff.degree then ⟨BitVec.ofNat 64 i, h⟩ else 0

theorem pt_val {i : Nat} (h : i < 2 ^ ff.degree) : (pt i : Elem ff).1 = BitVec.ofNat 64 i := by
  have h' : (BitVec.ofNat 64 i).toNat < 2 ^ ff.degree := lt_of_le_of_lt (by rw [BitVec.toNat_ofNat]; exact Nat.mod_le _ _) h
  exact congrArg (fun x : Elem ff => x.1) (dif_pos h')

theorem pt_inj {i j : Nat} (hi : i < 2 ^ ff.degree) (hj : j < 2 ^ ff.degree) (h : (pt i : Elem ff) = pt j) : i = j := by
  have h16 : ff.degree ≤ 16 := (Fact.out : FFOK ff).min.e16
  have h64 : 2 ^ ff.degree < 2 ^ 64 := Nat.pow_lt_pow_right (by norm_num) (by omega)
  have := congrArg (fun x : Elem ff => x.1.toNat) h
  simp only [pt_val hi, pt_val hj, BitVec.toNat_ofNat] at this
  rwa [Nat.mod_eq_of_lt (by omega), Nat.mod_eq_of_lt (by omega)] at this

theorem pt_zero : (pt 0 : Elem ff) = 0 := by
  apply Elem.ext'
  rw [pt_val (by positivity)]; rfl

theorem pt_one : (pt 1 : Elem ff) = 1 := by
  have h2 := IsField.two_le (ff := ff)
  apply Elem.ext'
  rw [pt_val (Nat.one_lt_two_pow (by omega))]; rfl

/-- value of a polynomial with matrix coefficients at `α` -/
def evalE (dA : Nat) (A : Nat → Nat → Nat → Word) (α : Elem ff) (i j : Nat) : Elem ff := ∑ a ∈ range dA, α ^ a * emb (bitAt (A a) i j)

theorem evalE_mul (dA dB K : Nat) (A B : Nat → Nat → Nat → Word) (α : Elem ff) {d : Nat} (hd : dA + dB - 1 ≤ d) (i j : Nat) :
    ∑ l ∈ range K, evalE dA A α i l * evalE dB B α l j = ∑ t ∈ range d, α ^ t * emb (pconv dA dB K A B t i j) := by
  have h1 : ∀ t, α ^ t * emb (pconv dA dB K A B t i j) = ∑ a ∈ range dA, ∑ b ∈ range dB, if t = a + b then
      α ^ t * ∑ l ∈ range K, emb (bitAt (A a) i l) * emb (bitAt (B b) l j) else (0 : Elem ff) := by
    intro t
    unfold pconv
    rw [map_sum, mul_sum]
    refine Finset.sum_congr rfl fun a _ => ?_
    rw [map_sum, mul_sum]
    refine Finset.sum_congr rfl fun b _ => ?_
    rw [map_mul, map_sum]
    by_cases h : t = a + b
    · rw [if_pos h, decide_eq_true h, show (emb true : Elem ff) = 1 from rfl, one_mul]
      refine congrArg _ (Finset.sum_congr rfl fun l _ => map_mul emb _ _)
    · rw [if_neg h, decide_eq_false h, show (emb false : Elem ff) = 0 from rfl, zero_mul, mul_zero]
  rw [Finset.sum_congr rfl fun t _ => h1 t, sum_comm]
  unfold evalE
  rw [Finset.sum_congr rfl fun l _ => sum_mul_sum _ _ _ _, sum_comm]
  refine Finset.sum_congr rfl fun a ha => ?_
  rw [sum_comm, sum_comm (s := range d)]
  refine Finset.sum_congr rfl fun b hb => ?_
  rw [mem_range] at ha hb
  rw [sum_ite_eq', if_pos (mem_range.2 (by omega)), mul_sum]
  refine Finset.sum_congr rfl fun l _ => ?_
  rw [pow_add]; ring

/-! ### slices -/

/-- `M + x*W` for a bit matrix `W` -/
def Mat.addBits (M : Mat ff) (x : Elem ff) (W : Nat → Nat → Word) : Mat ff :=
  { M with e := fun i j => if i < M.nrows ∧ j < M.ncols then M.e i j + x * emb (bitAt W i j) else M.e i j }

theorem forN_bits {n : Nat} {f : Nat → (Nat → Nat → Nat → Word) → (Nat → Nat → Nat → Word)} {δ : Nat → Nat → Nat → Nat → Bool}
    (h : ∀ a, a < n → ∀ X, ∀ k i j, bitAt (f a X k) i j = bitAt (X k) i j + δ a k i j) (X : Nat → Nat → Nat → Word) :
    ∀ k i j, bitAt (forN f n X k) i j = bitAt (X k) i j + ∑ a ∈ range n, δ a k i j := by
  induction n with
  | zero => intro k i j; simp [forN]
  | succ n ih =>
    intro k i j
    rw [forN, h n (by omega), ih (fun a ha => h a (by omega)), sum_range_succ, add_assoc]

theorem addmulMzd_spack (M : Mat ff) (x : Elem ff) (W : Nat → Nat → Word) : mzdSliceAddmulMzd M.spack x.1 W = (M.addBits x W).spack := by
  have h16 : ff.degree ≤ 16 := (Fact.out : FFOK ff).min.e16
  unfold mzdSliceAddmulMzd
  refine spack_ext rfl rfl rfl rfl rfl fun k i j => ?_
  have := forN_bits (n := ff.degree) (f := fun a X => if x.1 &&& twoPow a ≠ 0#64 then setSlice X a (mzdAdd M.nrows M.ncols (X a) (X a) W) else X)
    (δ := fun a k i j => (decide (i < M.nrows ∧ j < M.ncols) * bitAt W i j) * (decide (k = a) * ebit a x)) (by
    intro a ha X k i j
    by_cases hb : x.1.getLsbD a = true
    · rw [if_pos ((and_twoPow x.1 a (by omega)).2 hb), setSlice_bits, ebit_apply, hb]
      exact congrArg (fun z => bitAt (X k) i j + (decide (i < M.nrows ∧ j < M.ncols) * bitAt W i j) * z) (mul_one _).symm
    · have hb' : ebit a x = false := by rw [ebit_apply]; simpa using hb
      rw [if_neg fun h => hb ((and_twoPow x.1 a (by omega)).1 h), hb']
      exact ((congrArg (fun z => bitAt (X k) i j + (decide (i < M.nrows ∧ j < M.ncols) * bitAt W i j) * z) (mul_zero _)).trans
        ((congrArg _ (mul_zero _)).trans (add_zero _))).symm) M.spack.x k i j
  refine this.trans ?_
  rw [spack_bit]
  show ebit k (M.e i j) + _ = ebit k (if i < M.nrows ∧ j < M.ncols then M.e i j + x * emb (bitAt W i j) else M.e i j)
  have hs : ∑ a ∈ range ff.degree, (decide (i < M.nrows ∧ j < M.ncols) * bitAt W i j) * (decide (k = a) * ebit a x) =
      (decide (i < M.nrows ∧ j < M.ncols) * bitAt W i j) * ebit k x := by
    rw [← mul_sum]
    refine congrArg _ ?_
    by_cases hk : k < ff.degree
    · rw [sum_eq_single k]
      · rw [decide_eq_true rfl]; exact one_mul _
      · intro b _ hne
        rw [decide_eq_false (Ne.symm hne)]; exact zero_mul _
      · intro h; exact absurd (mem_range.2 hk) h
    · rw [ebit_high (by omega)]
      refine sum_eq_zero fun a ha => ?_
      rw [mem_range] at ha
      rw [decide_eq_false (by omega)]; exact zero_mul _
  rw [hs]
  by_cases hij : i < M.nrows ∧ j < M.ncols
  · rw [if_pos hij, decide_eq_true hij, map_add, ebit_mul_emb]
    exact congrArg (fun z => ebit k (M.e i j) + z * ebit k x) (one_mul _)
  · rw [if_neg hij, decide_eq_false hij]
    exact (congrArg (fun z => ebit k (M.e i j) + z * ebit k x) (zero_mul _)).trans
      ((congrArg _ (zero_mul _)).trans (add_zero _))

/-- the first `n` terms of the value at `α`, as a matrix -/
def evalMat (nr nc fid dA : Nat) (A : Nat → Nat → Nat → Word) (α : Elem ff) (n : Nat) : Mat ff :=
  ⟨nr, nc, fid, fun i j => if i < nr ∧ j < nc then ∑ a ∈ range n, if a < dA then α ^ a * emb (bitAt (A a) i j) else 0 else 0⟩

theorem evalMat_zero (nr nc fid dA : Nat) (A : Nat → Nat → Nat → Word) (α : Elem ff) {Z : Mat ff} (h1 : Z.nrows = nr) (h2 : Z.ncols = nc)
    (h3 : Z.fid = fid) (hz : ∀ i j, ¬ (i < nr ∧ j < nc) → Z.e i j = 0) :
    mzdSliceSetUi Z.spack 0#64 = (evalMat nr nc fid dA A α 0).spack := by
  rw [show (0#64 : Word) = (0 : Elem ff).1 from rfl, sliceSetUi_spack]
  refine congrArg Mat.spack (Mat.ext h1 h2 h3 ?_)
  funext i j
  show (if i < Z.nrows ∧ j < Z.ncols then (if i = j then 0 else 0) else Z.e i j) = if i < nr ∧ j < nc then ∑ a ∈ range 0, _ else 0
  rw [h1, h2]
  by_cases h : i < nr ∧ j < nc
  · rw [if_pos h, if_pos h, ite_self, range_zero, sum_empty]
  · rw [if_neg h, if_neg h, hz i j h]

theorem evalMat_succ (nr nc fid dA : Nat) (A : Nat → Nat → Nat → Word) (α : Elem ff) (n : Nat) :
    (if n < dA then mzdSliceAddmulMzd (evalMat nr nc fid dA A α n).spack (α ^ n).1 (A n) else (evalMat nr nc fid dA A α n).spack) =
      (evalMat nr nc fid dA A α (n + 1)).spack := by
  by_cases hn : n < dA
  · rw [if_pos hn, addmulMzd_spack]
    refine congrArg Mat.spack (Mat.ext rfl rfl rfl ?_)
    funext i j
    show (if i < nr ∧ j < nc then (if i < nr ∧ j < nc then _ else 0) + _ else (if i < nr ∧ j < nc then _ else 0)) =
      if i < nr ∧ j < nc then _ else 0
    by_cases h : i < nr ∧ j < nc
    · rw [if_pos h, if_pos h, if_pos h, sum_range_succ, if_pos hn]
    · rw [if_neg h, if_neg h, if_neg h]
  · rw [if_neg hn]
    refine congrArg Mat.spack (Mat.ext rfl rfl rfl ?_)
    funext i j
    show (if i < nr ∧ j < nc then _ else 0) = if i < nr ∧ j < nc then _ else 0
    by_cases h : i < nr ∧ j < nc
    · rw [if_pos h, if_pos h, sum_range_succ, if_neg hn, add_zero]
    · rw [if_neg h, if_neg h]

theorem evalMat_full {nr nc fid dA : Nat} {A : Nat → Nat → Nat → Word} {α : Elem ff} {n : Nat} (h : dA ≤ n) {i j : Nat} (hij : i < nr ∧ j < nc) :
    (evalMat nr nc fid dA A α n).e i j = evalE dA A α i j := by
  show (if i < nr ∧ j < nc then _ else 0) = _
  rw [if_pos hij, ← sum_filter]
  unfold evalE
  refine Finset.sum_congr ?_ fun _ _ => rfl
  ext a
  rw [mem_filter, mem_range, mem_range]
  omega

theorem gf2eMul_pt {i : Nat} (h : i < 2 ^ ff.degree) (x : Elem ff) : gf2eMul? ff (BitVec.ofNat 64 i) x.1 = some (pt i * x).1 := by
  rw [← pt_val (ff := ff) h]
  exact (gf2eMul_spec (Fact.out : FFOK ff) _ _ (pt i : Elem ff).2 x.2).1

/-- row `i` of `Phi` has been written up to column `n` -/
def Mat.vanRow (Phi : Mat ff) (i n : Nat) : Mat ff := { Phi with e := fun r c => if r = i ∧ c < n then pt i ^ c else Phi.e r c }

theorem ext1Step_loop (A B : MzdPoly) (fid : Nat) (Phi : Mat ff) {i : Nat} (hi : i < 2 ^ ff.degree) : ∀ n,
    forNM (ext1Step A B i) n ⟨Phi.pack, (evalMat A.nrows A.ncols fid A.depth A.x (pt i : Elem ff) 0).spack,
      (evalMat B.nrows B.ncols fid B.depth B.x (pt i : Elem ff) 0).spack, 1#64⟩ =
    some ⟨(Phi.vanRow i n).pack, (evalMat A.nrows A.ncols fid A.depth A.x (pt i : Elem ff) n).spack,
      (evalMat B.nrows B.ncols fid B.depth B.x (pt i : Elem ff) n).spack, ((pt i : Elem ff) ^ n).1⟩
  | 0 => by
    have h : Phi.vanRow i 0 = Phi := Mat.ext rfl rfl rfl (by
      funext r c
      exact if_neg (by omega))
    rw [h]
    rfl
  | n + 1 => by
    rw [forNM, ext1Step_loop A B fid Phi hi n, Option.bind_some]
    unfold ext1Step
    show Option.map _ (gf2eMul? ff (BitVec.ofNat 64 i) ((pt i : Elem ff) ^ n).1) = _
    rw [gf2eMul_pt hi, Option.map_some, evalMat_succ, evalMat_succ, write_pack, ← pow_succ']
    have h : (Phi.vanRow i n).set i n (pt i ^ n) = Phi.vanRow i (n + 1) := Mat.ext rfl rfl rfl (by
      funext r c
      show (if r = i ∧ c = n then _ else if r = i ∧ c < n then _ else _) = if r = i ∧ c < n + 1 then _ else _
      by_cases h1 : r = i ∧ c = n
      · rw [if_pos h1, if_pos ⟨h1.1, by omega⟩, h1.2]
      · rw [if_neg h1]
        by_cases h2 : r = i ∧ c < n
        · rw [if_pos h2, if_pos ⟨h2.1, by omega⟩]
        · rw [if_neg h2, if_neg (by omega)])
    rw [h]

/-- the matrix returned by `mzd_slice_mul(NULL,a,b)` -/
def Mat.prod (a b : Mat ff) : Mat ff :=
  ⟨a.nrows, b.ncols, a.fid, fun i j => if i < a.nrows ∧ j < b.ncols then ∑ l ∈ range a.ncols, a.e i l * b.e l j else 0⟩

theorem mulNew_spack (a b : Mat ff) (hi : a.ncols = b.nrows) (hf : a.fid = b.fid) :
    mzdSliceMulKaratsubaNew? a.spack b.spack = some (a.prod b).spack := by
  unfold mzdSliceMulKaratsubaNew?
  show (if a.ncols ≠ b.nrows ∨ a.fid ≠ b.fid then none else mzdSliceAddmulKara? (mzdSliceInit ff a.fid a.nrows b.ncols) a.spack b.spack) = _
  rw [if_neg (by tauto), sliceInit_spack, sliceAddmulKara_spack (⟨a.nrows, b.ncols, a.fid, fun _ _ => 0⟩ : Mat ff) a b rfl rfl]
  refine congrArg some (congrArg Mat.spack (Mat.ext rfl rfl rfl ?_))
  funext i j
  show (if i < a.nrows ∧ j < b.ncols then (0 : Elem ff) + _ else 0) = if i < a.nrows ∧ j < b.ncols then _ else 0
  rw [zero_add]

/-- the values of the product at `pt i` -/
def valMat (A B : MzdPoly) (fid d i : Nat) : Mat ff :=
  ⟨A.nrows, B.ncols, fid, fun r c => if r < A.nrows ∧ c < B.ncols then
    ∑ t ∈ range d, pt i ^ t * emb (pconv A.depth B.depth A.ncols A.x B.x t r c) else 0⟩

theorem ext1Eval_spec {A B : MzdPoly} (hAB : A.ncols = B.nrows) {fid d : Nat} (hdA : A.depth ≤ d) (hdB : B.depth ≤ d) (hd : A.depth + B.depth - 1 ≤ d)
    (Phi a b : Mat ff) {i : Nat} (hi : i < 2 ^ ff.degree)
    (ha : a.nrows = A.nrows ∧ a.ncols = A.ncols ∧ a.fid = fid ∧ ∀ i j, ¬ (i < A.nrows ∧ j < A.ncols) → a.e i j = 0)
    (hb : b.nrows = B.nrows ∧ b.ncols = B.ncols ∧ b.fid = fid ∧ ∀ i j, ¬ (i < B.nrows ∧ j < B.ncols) → b.e i j = 0) (c : Nat → Slice) :
    ext1Eval A B d i ((Phi.pack, a.spack, b.spack), c) =
      some (((Phi.vanRow i d).pack, (evalMat A.nrows A.ncols fid A.depth A.x (pt i : Elem ff) d).spack,
        (evalMat B.nrows B.ncols fid B.depth B.x (pt i : Elem ff) d).spack), fun k => if k = i then (valMat (ff := ff) A B fid d i).spack else c k) := by
  unfold ext1Eval
  show Option.bind (forNM (ext1Step A B i) d ⟨Phi.pack, mzdSliceSetUi a.spack 0#64, mzdSliceSetUi b.spack 0#64, 1#64⟩) _ = _
  rw [evalMat_zero A.nrows A.ncols fid A.depth A.x (pt i) ha.1 ha.2.1 ha.2.2.1 ha.2.2.2,
    evalMat_zero B.nrows B.ncols fid B.depth B.x (pt i) hb.1 hb.2.1 hb.2.2.1 hb.2.2.2, ext1Step_loop A B fid Phi hi d, Option.bind_some]
  have hm : mzdSliceMulKaratsubaNew? (evalMat A.nrows A.ncols fid A.depth A.x (pt i : Elem ff) d).spack
      (evalMat B.nrows B.ncols fid B.depth B.x (pt i : Elem ff) d).spack = some (valMat (ff := ff) A B fid d i).spack := by
    rw [mulNew_spack (evalMat A.nrows A.ncols fid A.depth A.x (pt i : Elem ff) d) (evalMat B.nrows B.ncols fid B.depth B.x (pt i : Elem ff) d) hAB rfl]
    refine congrArg some (congrArg Mat.spack (Mat.ext rfl rfl rfl ?_))
    funext r c
    show (if r < A.nrows ∧ c < B.ncols then ∑ l ∈ range A.ncols, _ else 0) = if r < A.nrows ∧ c < B.ncols then _ else 0
    by_cases h : r < A.nrows ∧ c < B.ncols
    · rw [if_pos h, if_pos h, ← evalE_mul A.depth B.depth A.ncols A.x B.x (pt i) hd]
      refine Finset.sum_congr rfl fun l hl => ?_
      rw [mem_range] at hl
      rw [evalMat_full hdA ⟨h.1, hl⟩, evalMat_full hdB ⟨hAB ▸ hl, h.2⟩]
    · rw [if_neg h, if_neg h]
  rw [hm, Option.map_some]

/-- `Phi` after the rows below `n` have been written -/
def vanMat (fid d n : Nat) : Mat ff := ⟨d, d, fid, fun r c => if r < n ∧ c < d then pt r ^ c else 0⟩

theorem vanMat_succ (fid d n : Nat) : (vanMat fid d n : Mat ff).vanRow n d = vanMat fid d (n + 1) := by
  refine Mat.ext rfl rfl rfl ?_
  funext r c
  show (if r = n ∧ c < d then _ else if r < n ∧ c < d then _ else _) = if r < n + 1 ∧ c < d then _ else _
  by_cases h1 : r = n ∧ c < d
  · rw [if_pos h1, if_pos ⟨by omega, h1.2⟩, h1.1]
  · rw [if_neg h1]
    by_cases h2 : r < n ∧ c < d
    · rw [if_pos h2, if_pos ⟨by omega, h2.2⟩]
    · rw [if_neg h2, if_neg (by omega)]

theorem ext1Eval_loop {A B : MzdPoly} (hAB : A.ncols = B.nrows) {fid d : Nat} (hdA : A.depth ≤ d) (hdB : B.depth ≤ d) (hd : A.depth + B.depth - 1 ≤ d)
    (a b : Mat ff) (ha : a.nrows = A.nrows ∧ a.ncols = A.ncols ∧ a.fid = fid ∧ ∀ i j, ¬ (i < A.nrows ∧ j < A.ncols) → a.e i j = 0)
    (hb : b.nrows = B.nrows ∧ b.ncols = B.ncols ∧ b.fid = fid ∧ ∀ i j, ¬ (i < B.nrows ∧ j < B.ncols) → b.e i j = 0) (c : Nat → Slice)
    (hc : ∀ k, k < 2 → c k = (valMat (ff := ff) A B fid d k).spack) : ∀ n, n + 2 ≤ 2 ^ ff.degree →
    ∃ (a' b' : Mat ff) (c' : Nat → Slice),
      forNM (fun i s => ext1Eval A B d (i + 2) s) n (((vanMat fid d 2 : Mat ff).pack, a.spack, b.spack), c) =
        some (((vanMat fid d (n + 2) : Mat ff).pack, a'.spack, b'.spack), c') ∧
      (a'.nrows = A.nrows ∧ a'.ncols = A.ncols ∧ a'.fid = fid ∧ ∀ i j, ¬ (i < A.nrows ∧ j < A.ncols) → a'.e i j = 0) ∧
      (b'.nrows = B.nrows ∧ b'.ncols = B.ncols ∧ b'.fid = fid ∧ ∀ i j, ¬ (i < B.nrows ∧ j < B.ncols) → b'.e i j = 0) ∧
      ∀ k, k < n + 2 → c' k = (valMat (ff := ff) A B fid d k).spack
  | 0, _ => ⟨a, b, c, rfl, ha, hb, hc⟩
  | n + 1, hn => by
    obtain ⟨a', b', c', e, ha', hb', hc'⟩ := ext1Eval_loop hAB hdA hdB hd a b ha hb c hc n (by omega)
    refine ⟨_, _, _, by rw [forNM, e, Option.bind_some, ext1Eval_spec hAB hdA hdB hd _ a' b' (by omega) ha' hb', vanMat_succ],
      ⟨rfl, rfl, rfl, fun i j h => if_neg h⟩, ⟨rfl, rfl, rfl, fun i j h => if_neg h⟩, fun k hk => ?_⟩
    show (if k = n + 2 then _ else c' k) = _
    by_cases hkn : k = n + 2
    · rw [if_pos hkn, hkn]
    · rw [if_neg hkn, hc' k (by omega)]

/-- a matrix with entries in GF(2) -/
theorem bits_spack (fid nr nc : Nat) (W : Nat → Nat → Word) :
    ({ mzdSliceInit ff fid nr nc with x := setSlice (mzdSliceInit ff fid nr nc).x 0 W } : Slice) =
      Mat.spack (ff := ff) ⟨nr, nc, fid, fun i j => emb (bitAt W i j)⟩ := by
  refine spack_ext rfl rfl rfl rfl rfl fun k i j => ?_
  show bitAt (setSlice (fun _ _ _ => 0#64) 0 W k) i j = ebit k (emb (bitAt W i j))
  rw [ebit_emb]
  unfold setSlice
  by_cases hk : k = 0
  · rw [if_pos hk, decide_eq_true hk, Bool.true_and]
  · rw [if_neg hk, decide_eq_false hk, Bool.false_and]
    simp [bitAt]

/-- the sum of all coefficients -/
theorem sumAll_bits (nr nc n : Nat) (A : Nat → Nat → Nat → Word) :
    ∃ W, forN (fun i x => setSlice x 0 (mzdAdd nr nc (x 0) (x 0) (A i))) n (fun _ _ _ => 0#64) = setSlice (fun _ _ _ => 0#64) 0 W ∧
      ∀ i j, bitAt W i j = decide (i < nr ∧ j < nc) * ∑ a ∈ range n, bitAt (A a) i j := by
  induction n with
  | zero =>
    refine ⟨fun _ _ => 0#64, ?_, fun i j => ?_⟩
    · funext k
      unfold forN setSlice
      exact (ite_self _).symm
    · rw [range_zero, sum_empty]
      exact Eq.trans (by simp [bitAt]; rfl) (mul_zero _).symm
  | succ n ih =>
    obtain ⟨W, e, hW⟩ := ih
    refine ⟨mzdAdd nr nc W W (A n), ?_, fun i j => ?_⟩
    · rw [forN, e]
      funext k
      unfold setSlice
      by_cases hk : k = 0
      · simp only [hk, if_true]
      · simp only [hk, if_false]
    · rw [bitAt_addTo, hW, sum_range_succ, mul_add]; rfl

theorem valMat_zero {A B : MzdPoly} (fid d : Nat) (h1 : 1 ≤ A.depth) (h2 : 1 ≤ B.depth) (hd : 1 ≤ d) :
    ({ mzdSliceInit ff fid A.nrows B.ncols with x := setSlice (mzdSliceInit ff fid A.nrows B.ncols).x 0 (mzdMul A.nrows A.ncols B.ncols ((mzdSliceInit ff fid A.nrows B.ncols).x 0) (A.x 0) (B.x 0)) } : Slice) =
      (valMat (ff := ff) A B fid d 0).spack := by
  rw [bits_spack]
  refine congrArg Mat.spack (Mat.ext rfl rfl rfl ?_)
  funext r c
  show emb (bitAt (mzdMul A.nrows A.ncols B.ncols (fun _ _ => 0#64) (A.x 0) (B.x 0)) r c) = if r < A.nrows ∧ c < B.ncols then _ else 0
  by_cases h : r < A.nrows ∧ c < B.ncols
  · have hs : ∑ t ∈ range d, (pt 0 : Elem ff) ^ t * emb (pconv A.depth B.depth A.ncols A.x B.x t r c) =
        emb (pconv A.depth B.depth A.ncols A.x B.x 0 r c) := by
      rw [pt_zero, sum_eq_single 0]
      · rw [pow_zero, one_mul]
      · intro t _ ht
        rw [zero_pow ht, zero_mul]
      · intro hn; exact absurd (mem_range.2 (by omega)) hn
    rw [if_pos h, mzdMul_bits _ _ _ _ _ _ h, hs]
    · refine congrArg emb (Eq.symm ?_)
      unfold pconv
      rw [sum_eq_single 0, sum_eq_single 0]
      · rw [decide_eq_true rfl]; exact one_mul _
      · intro b _ hb
        rw [decide_eq_false (by omega)]; exact zero_mul _
      · intro hn; exact absurd (mem_range.2 (by omega)) hn
      · intro a _ ha
        refine sum_eq_zero fun b _ => ?_
        rw [decide_eq_false (by omega)]; exact zero_mul _
      · intro hn; exact absurd (mem_range.2 (by omega)) hn
  · rw [if_neg h]
    unfold mzdMul
    rw [bitAt_ofBits, if_neg h]
    simp [bitAt]
    exact map_zero emb

theorem valMat_one {A B : MzdPoly} (hAB : A.ncols = B.nrows) (fid : Nat) {d : Nat} (hd : A.depth + B.depth - 1 ≤ d) {WA WB : Nat → Nat → Word}
    (hA : ∀ i j, bitAt WA i j = decide (i < A.nrows ∧ j < A.ncols) * ∑ a ∈ range A.depth, bitAt (A.x a) i j)
    (hB : ∀ i j, bitAt WB i j = decide (i < B.nrows ∧ j < B.ncols) * ∑ a ∈ range B.depth, bitAt (B.x a) i j) :
    ({ mzdSliceInit ff fid A.nrows B.ncols with x := setSlice (mzdSliceInit ff fid A.nrows B.ncols).x 0 (mzdMul A.nrows A.ncols B.ncols ((mzdSliceInit ff fid A.nrows B.ncols).x 0) WA WB) } : Slice) =
      (valMat (ff := ff) A B fid d 1).spack := by
  rw [bits_spack]
  refine congrArg Mat.spack (Mat.ext rfl rfl rfl ?_)
  funext r c
  show emb (bitAt (mzdMul A.nrows A.ncols B.ncols (fun _ _ => 0#64) WA WB) r c) = if r < A.nrows ∧ c < B.ncols then _ else 0
  by_cases h : r < A.nrows ∧ c < B.ncols
  · rw [if_pos h, mzdMul_bits _ _ _ _ _ _ h, ← evalE_mul A.depth B.depth A.ncols A.x B.x (pt 1) hd, map_sum]
    refine Finset.sum_congr rfl fun l hl => ?_
    rw [mem_range] at hl
    rw [map_mul, hA, hB, decide_eq_true ⟨h.1, hl⟩, decide_eq_true ⟨hAB ▸ hl, h.2⟩, map_mul, map_mul,
      show (emb true : Elem ff) = 1 from rfl, one_mul, one_mul, map_sum, map_sum, pt_one]
    unfold evalE
    simp only [one_pow, one_mul]
  · rw [if_neg h]
    unfold mzdMul
    rw [bitAt_ofBits, if_neg h]
    simp [bitAt]
    exact map_zero emb

end

end M4rie
