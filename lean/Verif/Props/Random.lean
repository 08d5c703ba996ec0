import Verif.Props.Entry
import Verif.Props.Packed
import Mathlib.Probability.Distributions.Uniform

/-!
# C74: randomisation is uniform

The theorems speak about the distribution of what the caller reads back after a randomisation call, when the source of randomness is
uniform: `random()` delivers independent values uniform on `[0, 2^31)` (its documented range), `mzd_randomize` of M4RI independent bits.
-/

namespace M4rie.Props
open M4rie M4rie.Spec

/-! ## Uniform distributions under maps whose fibres all have the same size -/

/-- the first component of a uniform pair is uniform -/
theorem uniform_map_fst {α β γ : Type} [Fintype α] [Nonempty α] [Fintype β] [Nonempty β] [Fintype γ] (e : α ≃ β × γ) :
    (PMF.uniformOfFintype α).map (fun a => (e a).1) = PMF.uniformOfFintype β := by
  classical
  have hγ : Nonempty γ := ⟨(e (Classical.arbitrary α)).2⟩
  ext b
  rw [PMF.map_apply, tsum_fintype, PMF.uniformOfFintype_apply]
  have h1 : ∀ a, (if b = (e a).1 then (PMF.uniformOfFintype α) a else 0) =
      if b = (e a).1 then ((Fintype.card α : ENNReal))⁻¹ else 0 := fun a => by rw [PMF.uniformOfFintype_apply]
  simp only [PMF.uniformOfFintype_apply]
  rw [← Finset.sum_filter, Finset.sum_const, nsmul_eq_mul]
  have hcard : (Finset.univ.filter fun a => b = (e a).1).card = Fintype.card γ := by
    rw [← Finset.card_univ]
    refine Finset.card_bij' (fun a _ => (e a).2) (fun c _ => e.symm (b, c)) ?_ ?_ ?_ ?_
    · intros; simp
    · intros; simp
    · intro a ha
      have : b = (e a).1 := by simpa using ha
      rw [this]; simp
    · intros; simp
  rw [hcard, Fintype.card_congr e, Fintype.card_prod, Nat.cast_mul]
  have c0 : (Fintype.card γ : ENNReal) ≠ 0 := by exact_mod_cast Fintype.card_ne_zero
  rw [ENNReal.mul_inv (Or.inr (ENNReal.natCast_ne_top _)) (Or.inl (ENNReal.natCast_ne_top _)), mul_comm (_)⁻¹, ← mul_assoc,
    ENNReal.mul_inv_cancel c0 (ENNReal.natCast_ne_top _), one_mul]

/-- a bijection keeps the uniform distribution -/
theorem uniform_map_equiv {α β : Type} [Fintype α] [Nonempty α] [Fintype β] [Nonempty β] (e : α ≃ β) :
    (PMF.uniformOfFintype α).map e = PMF.uniformOfFintype β :=
  uniform_map_fst (e.trans (Equiv.prodPUnit β).symm)

/-! ## The elements of the field as a finite type -/

variable {ff : Gf2e}

/-- the stored elements are the numbers below `2^e` -/
def elemEquiv (he : ff.degree ≤ 64) : Elem ff ≃ Fin (2 ^ ff.degree) where
  toFun x := ⟨x.1.toNat, x.2⟩
  invFun k := ⟨BitVec.ofNat 64 k.1, by
    rw [BitVec.toNat_ofNat]; exact lt_of_le_of_lt (Nat.mod_le _ _) k.2⟩
  left_inv x := Subtype.ext (by simp)
  right_inv k := Fin.ext (by
    show (BitVec.ofNat 64 k.1).toNat = k.1
    rw [BitVec.toNat_ofNat]
    exact Nat.mod_eq_of_lt (lt_of_lt_of_le k.2 (Nat.pow_le_pow_right (by norm_num) he)))

variable [IsField ff]

theorem deg_le_16 (ff : Gf2e) [IsField ff] : ff.degree ≤ 16 := (Fact.out : FFOK ff).min.e16

instance : Fintype (Elem ff) := Fintype.ofEquiv _ (elemEquiv (by have := deg_le_16 ff; omega)).symm

theorem card_elem : Fintype.card (Elem ff) = 2 ^ ff.degree := by
  rw [Fintype.card_congr (elemEquiv (by have := deg_le_16 ff; omega)), Fintype.card_fin]

/-! ## Packed matrices -/

/-- The values `random()` delivers for the entries of an `m × n` matrix, as the source of randomness handed to the model: `ω i j` is the
value delivered when entry `(i,j)` is drawn. -/
def drawn {m n : Nat} (ω : Fin m → Fin n → Fin (2 ^ 31)) (i j : Nat) : Word :=
  if h : i < m ∧ j < n then BitVec.ofNat 64 (ω ⟨i, h.1⟩ ⟨j, h.2⟩).1 else 0#64

/-- a value of `random()` is its remainder modulo `2^e` and the rest -/
def splitRandom (ff : Gf2e) [IsField ff] : Fin (2 ^ 31) ≃ Elem ff × Fin (2 ^ (31 - ff.degree)) :=
  (finCongr (by rw [← pow_add]; congr 1; have := deg_le_16 ff; omega)).trans
    ((finProdFinEquiv (m := 2 ^ (31 - ff.degree)) (n := 2 ^ ff.degree)).symm.trans
      ((Equiv.prodComm _ _).trans ((elemEquiv (by have := deg_le_16 ff; omega)).symm.prodCongr (Equiv.refl _))))

theorem splitRandom_fst (x : Fin (2 ^ 31)) : (splitRandom ff x).1.1.toNat = x.1 % 2 ^ ff.degree := by
  show (BitVec.ofNat 64 (x.1 % 2 ^ ff.degree)).toNat = _
  rw [BitVec.toNat_ofNat]
  exact Nat.mod_eq_of_lt (lt_of_lt_of_le (Nat.mod_lt _ (by positivity))
    (Nat.pow_le_pow_right (by norm_num) (by have := deg_le_16 ff; omega)))

/-- split every entry -/
def splitAll (ff : Gf2e) [IsField ff] (m n : Nat) : (Fin m → Fin n → Fin (2 ^ 31)) ≃
    (Fin m → Fin n → Elem ff) × (Fin m → Fin n → Fin (2 ^ (31 - ff.degree))) :=
  (Equiv.piCongrRight fun _ => (Equiv.piCongrRight fun _ => splitRandom ff).trans
    (Equiv.arrowProdEquivProdArrow _ _ _)).trans (Equiv.arrowProdEquivProdArrow _ _ _)

/-- **C74** `mzed_randomize(A)`: when `random()` delivers independent values uniform on `[0,2^31)`, the matrix the caller reads back is
uniformly distributed over all matrices of that size over GF(2^e): every matrix has the same probability, the entries are independent, and
nothing of the old content of `A` is left. -/
theorem C74_packed {A : Mzed} {M : Nat → Nat → Elem ff} (h : Rep A M) :
    (PMF.uniformOfFintype (Fin A.nrows → Fin A.ncols → Fin (2 ^ 31))).map
        (fun ω (i : Fin A.nrows) (j : Fin A.ncols) => mzedReadElem (mzedRandomize A (drawn ω)) i j) =
      (PMF.uniformOfFintype (Fin A.nrows → Fin A.ncols → Elem ff)).map (fun X i j => (X i j).1) := by
  have := uniform_map_fst (splitAll ff A.nrows A.ncols)
  rw [← this, PMF.map_comp]
  congr 1
  funext ω i j
  obtain ⟨N, hN, hv⟩ := C42_randomize h (drawn ω)
  rw [hN.read, if_pos ⟨i.2, j.2⟩]
  refine BitVec.eq_of_toNat_eq ?_
  rw [hv]
  show _ = (splitRandom ff (ω i j)).1.1.toNat
  have hd : drawn ω i j = BitVec.ofNat 64 (ω i j).1 := dif_pos ⟨i.2, j.2⟩
  have h64 : (BitVec.ofNat 64 (ω i j).1).toNat = (ω i j).1 := by
    rw [BitVec.toNat_ofNat]
    exact Nat.mod_eq_of_lt (lt_trans (ω i j).2 (by norm_num))
  rw [splitRandom_fst, hd, h64]

/-- **C74** in numbers: every `m × n` matrix over GF(2^e) comes out of `mzed_randomize` with probability `(2^e)^-(m n)`. -/
theorem C74_packed_prob {A : Mzed} {M : Nat → Nat → Elem ff} (h : Rep A M) (X : Fin A.nrows → Fin A.ncols → Elem ff) :
    ((PMF.uniformOfFintype (Fin A.nrows → Fin A.ncols → Fin (2 ^ 31))).map
        (fun ω (i : Fin A.nrows) (j : Fin A.ncols) => mzedReadElem (mzedRandomize A (drawn ω)) i j)) (fun i j => (X i j).1) =
      (((2 ^ ff.degree) ^ (A.nrows * A.ncols) : Nat) : ENNReal)⁻¹ := by
  classical
  rw [C74_packed h, PMF.map_apply, tsum_eq_single X]
  · rw [if_pos rfl, PMF.uniformOfFintype_apply]
    congr 2
    rw [Fintype.card_fun, Fintype.card_fun, card_elem, Fintype.card_fin, Fintype.card_fin, ← pow_mul, mul_comm A.ncols]
  · intro Y hY
    rw [if_neg]
    intro he
    exact hY (funext fun i => funext fun j => Subtype.ext (congrFun (congrFun he i) j).symm)

/-! ## Sliced matrices and matrices of polynomials -/

/-- The bits M4RI's `mzd_randomize` delivers for the slices of an `m × n` matrix: `ω i j k` is bit `(i,j)` of slice `k`. -/
def drawnBits {m n d : Nat} (ω : Fin m → Fin n → Fin d → Bool) (k i j : Nat) : Bool :=
  if h : i < m ∧ j < n ∧ k < d then ω ⟨i, h.1⟩ ⟨j, h.2.1⟩ ⟨k, h.2.2⟩ else false

/-- a field element is its bits -/
noncomputable def elemBits (ff : Gf2e) [IsField ff] : Elem ff ≃ (Fin ff.degree → Bool) :=
  Equiv.ofBijective (fun x k => x.1.getLsbD k) ((Fintype.bijective_iff_injective_and_card _).2 ⟨by
    intro x y hxy
    refine Subtype.ext (BitVec.eq_of_getLsbD_eq fun k _ => ?_)
    by_cases hk : k < ff.degree
    · exact congrFun hxy ⟨k, hk⟩
    · rw [(bitsLt_iff x.1 ff.degree).2 x.2 k (by omega), (bitsLt_iff y.1 ff.degree).2 y.2 k (by omega)], by
    rw [card_elem, Fintype.card_fun, Fintype.card_fin, Fintype.card_bool]⟩)

/-- **C74** `mzd_slice_randomize(A)`: when the bits are independent and uniform, the matrix the caller reads back is uniformly distributed
over all matrices of that size over GF(2^e). -/
theorem C74_slice {A : Slice} {M : Nat → Nat → Elem ff} (h : SRep A M) :
    (PMF.uniformOfFintype (Fin A.nrows → Fin A.ncols → Fin ff.degree → Bool)).map
        (fun ω (i : Fin A.nrows) (j : Fin A.ncols) => mzdSliceReadElem (mzdSliceRandomize A (drawnBits ω)) i j) =
      (PMF.uniformOfFintype (Fin A.nrows → Fin A.ncols → Elem ff)).map (fun X i j => (X i j).1) := by
  have := uniform_map_equiv ((Equiv.piCongrRight fun _ : Fin A.nrows => Equiv.piCongrRight fun _ : Fin A.ncols => elemBits ff).symm)
  rw [← this, PMF.map_comp]
  congr 1
  funext ω i j
  obtain ⟨-, N, hN, hv⟩ := C42_slice_randomize h (drawnBits ω)
  rw [C47_read hN, if_pos ⟨i.2, j.2⟩]
  show (N i j).1 = ((elemBits ff).symm (ω i j)).1
  congr 1
  refine (elemBits ff).injective ?_
  rw [Equiv.apply_symm_apply]
  funext k
  show (N i j).1.getLsbD k = _
  rw [hv _ _ _ k.2, drawnBits, dif_pos ⟨i.2, j.2, k.2⟩]

/-- **C74** `mzd_poly_randomize(A)`: when the bits are independent and uniform, so are the coefficients the caller reads back. -/
theorem C74_poly (A : MzdPoly) :
    (PMF.uniformOfFintype (Fin A.nrows → Fin A.ncols → Fin A.depth → Bool)).map
        (fun ω (i : Fin A.nrows) (j : Fin A.ncols) (t : Fin A.depth) => bitAt ((mzdPolyRandomize A (drawnBits ω)).x t) i j) =
      PMF.uniformOfFintype (Fin A.nrows → Fin A.ncols → Fin A.depth → Bool) := by
  convert PMF.map_id _ using 2
  funext ω i j t
  rw [(C42_poly_randomize A (drawnBits ω)).2, if_pos ⟨t.2, i.2, j.2⟩, drawnBits, dif_pos ⟨i.2, j.2, t.2⟩]
  rfl

-- matrices meeting the hypotheses: 3x5 over a field with 2^16 elements, packed and sliced; here every outcome has probability 2^-240
example : ∃ ff, ∃ _ : IsField ff, ∃ A : Mzed, ∃ S : Slice, Rep A (fun _ _ => (0 : Elem ff)) ∧ SRep S (fun _ _ => (0 : Elem ff)) ∧
    ff.degree = 16 ∧ A.nrows = 3 ∧ A.ncols = 5 ∧ S.nrows = 3 ∧ S.ncols = 5 := by
  obtain ⟨ff, h, hd⟩ := exists_deg16
  exact ⟨ff, h, mzedInit ff 0 3 5, _, rep_init .., spack_rep ⟨3, 5, 0, fun _ _ => 0⟩, hd, rfl, rfl, rfl, rfl⟩

end M4rie.Props
