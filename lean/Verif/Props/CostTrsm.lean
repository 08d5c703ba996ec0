import Verif.Proofs.CostTrsm
import Verif.Props.TrsmRec

/-!
# C81: solving triangular systems is asymptotically fast

README.md: "asymptotically fast TRiangular System solving with Matrices (upper left, lower left)".  The block recursion reduces a system to multiplications and to small
systems which are solved directly.  It takes the time of a multiplication, up to a constant factor, with the same exponent.
-/

namespace M4rie.Props
open M4rie M4rie.Spec

variable {ff : Gf2e} [IsField ff]

/-- What is claimed about the calls `l` that solving with an `n × m` right hand side and a given cutoff is reduced to. -/
structure FastCalls (cutoff : Int) (n m : Nat) (l : List Call) : Prop where
  /-- the calls together are no larger than the system -/
  size : (l.map Call.size).sum ≤ n * n * m
  /-- systems are solved directly only if one dimension is not above the cutoff -/
  direct : ∀ n' m' : Nat, .solve n' m' ∈ l → (n' : Int) ≤ cutoff ∨ (m' : Int) ≤ cutoff
  /-- the cutoff times a power of two: `2^j` systems of the size of the cutoff, `2^(j-1-i)` multiplications of the size of `2^i` times the cutoff -/
  exactly : ∀ j b, 0 < b → 64 ∣ b → cutoff = (b : Nat) → n = 2 ^ j * b → b < m → ∀ cost : Call → ℝ,
    callsCost cost l = 2 ^ j * cost (.solve b m) + ∑ i ∈ Finset.range j, 2 ^ (j - 1 - i) * cost (.addmul (2 ^ i * b) (2 ^ i * b) m)
  /-- all dimensions at most `N`: if solving directly is at most cubic and multiplication is fast with exponent `ω`, `2 < ω ≤ 3`, then solving takes time `O(N^ω)`. -/
  fast : 128 ≤ cutoff → ∀ (N : Nat) (cost : Call → ℝ) (a b ω : ℝ), 0 < n → n ≤ N → m ≤ N → 0 ≤ a → 0 ≤ b → 2 < ω → ω ≤ 3 →
    (∀ n' m', cost (.solve n' m') ≤ a * (n' * n' * m' : Nat)) → FastMul cost b ω →
    callsCost cost l ≤ 16 * b / ((2 : ℝ) ^ (ω - 1) - 2) * (N : ℝ) ^ ω + (a * cutoff + 129032 * b) * (N : ℝ) ^ 2

theorem fastCalls (up : Bool) (cutoff : Int) (n m : Nat) : FastCalls cutoff n m (trsmCalls up cutoff (n + 1) n m) where
  size := trsmCalls_size up cutoff _ _ _
  direct n' m' h := trsmCalls_direct up cutoff _ _ _ _ h n' m' rfl
  exactly j b hb hd hc hn hm cost := by
    subst hc hn
    have h1 : j < 2 ^ j := Nat.lt_two_pow_self
    have h2 : 2 ^ j ≤ 2 ^ j * b := Nat.le_mul_of_pos_right _ hb
    exact trsmCalls_pow cost up hb hd hm j _ (by omega)
  fast hc N cost a b ω h0 hn hm ha hb h1 h2 h3 h4 := trsmCalls_fast up hc h0 hn hm ha hb h1 h2 (fun n' => h3 n' m) h4 _

section packed
variable {A B : Mzed} {MA MB : Nat → Nat → Elem ff} (hA : Rep A MA) (hB : Rep B MB) (hr : A.nrows = B.nrows) (hc : A.ncols = B.nrows)
  (hf : A.fid = B.fid) (hd : ∀ i, i < B.nrows → MA i i ≠ 0) (hn : 0 < B.ncols) {env : MulEnv} (henv : env.Ok ff.degree)
include hA hB hr hc hf hd hn henv

/-- **C81** `_mzed_trsm_lower_left(L,B,cutoff)` for every cutoff of at least 64; the result is the solution. -/
theorem C81_lower {cutoff : Int} (hcut : 64 ≤ cutoff) :
    ∃ R l, mzedTrsmLowerLeftL env A B cutoff = some (R, l) ∧ SolvedLower R B MA MB ∧ FastCalls cutoff B.nrows B.ncols l := by
  obtain ⟨R, e, h⟩ := C30_lower hA hB hr hc hf hd hn henv hcut
  refine ⟨R, _, ?_, h, fastCalls false cutoff _ _⟩
  unfold mzedTrsmLowerLeftL
  unfold mzedTrsmLowerLeft? at e
  rw [trsmLowerF_logs (mzedTrsm_logs env) cutoff (B.nrows + 1) B.nrows B.ncols (A, []) B [] hr rfl rfl, e]
  rfl

/-- **C81** `_mzed_trsm_upper_left(U,B,cutoff)` -/
theorem C81_upper {cutoff : Int} (hcut : 64 ≤ cutoff) :
    ∃ R l, mzedTrsmUpperLeftL env A B cutoff = some (R, l) ∧ SolvedUpper R B MA MB ∧ FastCalls cutoff B.nrows B.ncols l := by
  obtain ⟨R, e, h⟩ := C30_upper hA hB hr hc hf hd hn henv hcut
  refine ⟨R, _, ?_, h, fastCalls true cutoff _ _⟩
  unfold mzedTrsmUpperLeftL
  unfold mzedTrsmUpperLeft? at e
  rw [trsmUpperF_logs (mzedTrsm_logs env) cutoff (B.nrows + 1) B.nrows B.ncols (A, []) B [] hr rfl rfl, e]
  rfl

end packed

section sliced
variable {A B : Slice} {MA MB : Nat → Nat → Elem ff} (hA : SRep A MA) (hB : SRep B MB) (hr : A.nrows = B.nrows) (hc : A.ncols = B.nrows)
  (hd : ∀ i, i < B.nrows → MA i i ≠ 0) (hn : 0 < B.ncols)
include hA hB hr hc hd hn

/-- **C81** `_mzd_slice_trsm_lower_left(L,B,cutoff)` -/
theorem C81_slice_lower {cb : Codebook} (hcb : cb.Ok ff.degree) {cutoff : Int} (hcut : 64 ≤ cutoff) (hf : A.fid = B.fid) :
    ∃ R l, mzdSliceTrsmLowerLeftL cb A B cutoff = some (R, l) ∧ SSolvedLower R B MA MB ∧ FastCalls cutoff B.nrows B.ncols l := by
  obtain ⟨R, e, h⟩ := C30_slice_lower hA hB hr hc hd hn hcb hcut hf
  refine ⟨R, _, ?_, h, fastCalls false cutoff _ _⟩
  unfold mzdSliceTrsmLowerLeftL
  unfold mzdSliceTrsmLowerLeft? at e
  rw [trsmLowerF_logs (sliceTrsm_logs cb) cutoff (B.nrows + 1) B.nrows B.ncols (A, []) B [] hr rfl rfl, e]
  rfl

/-- **C81** `_mzd_slice_trsm_upper_left(U,B,cutoff)` -/
theorem C81_slice_upper {cb : Codebook} (hcb : cb.Ok ff.degree) {cutoff : Int} (hcut : 64 ≤ cutoff) (hf : A.fid = B.fid) :
    ∃ R l, mzdSliceTrsmUpperLeftL cb A B cutoff = some (R, l) ∧ SSolvedUpper R B MA MB ∧ FastCalls cutoff B.nrows B.ncols l := by
  obtain ⟨R, e, h⟩ := C30_slice_upper hA hB hr hc hd hn hcb hcut hf
  refine ⟨R, _, ?_, h, fastCalls true cutoff _ _⟩
  unfold mzdSliceTrsmUpperLeftL
  unfold mzdSliceTrsmUpperLeft? at e
  rw [trsmUpperF_logs (sliceTrsm_logs cb) cutoff (B.nrows + 1) B.nrows B.ncols (A, []) B [] hr rfl rfl, e]
  rfl

end sliced

/-! ### Cases that meet the hypotheses -/

-- GF(2^8), 2000 × 2000 with ones in the lower triangle, 700 columns, the default cutoff 512
example : ∃ ff, ∃ _ : IsField ff, ∃ env : MulEnv, env.Ok ff.degree ∧ ∃ (A B : Mzed) (MA MB : Nat → Nat → Elem ff), Rep A MA ∧ Rep B MB ∧ A.nrows = B.nrows ∧
    A.ncols = B.nrows ∧ A.fid = B.fid ∧ (∀ i, i < B.nrows → MA i i ≠ 0) ∧ 0 < B.ncols ∧ (64 : Int) ≤ mzedTrsmCutoff ∧ (128 : Int) ≤ mzedTrsmCutoff ∧
    B.nrows = 2000 ∧ B.ncols = 700 := by
  obtain ⟨ff, h, hd⟩ := exists_aes
  let X : Mat ff := ⟨2000, 2000, 0, fun i j => if j ≤ i then 1 else 0⟩
  let Y : Mat ff := ⟨2000, 700, 0, fun i j => if i = j then 1 else 0⟩
  have hdiag : ∀ i, i < 2000 → X.e i i ≠ 0 := fun i _ => by
    have : X.e i i = 1 := if_pos (le_refl i)
    rw [this]
    exact one_ne_zero
  exact ⟨ff, h, ⟨grayCode, 2048, Nat.sqrt, 1048576⟩, ⟨grayCode_ok _, by norm_num, rfl, by norm_num⟩, X.pack, Y.pack, _, _, pack_rep X, pack_rep Y, rfl, rfl, rfl, hdiag,
    by show 0 < 700; norm_num, by decide, by decide, rfl, rfl⟩

-- the schoolbook method has exponent 3
theorem fastMul_schoolbook : FastMul (fun c => (c.size : ℝ)) 1 3 := by
  intro x y z X L hX hy hmin hmax
  have e : (X : ℝ) ^ ((3 : ℝ) - 1) = (X : ℝ) * X := by
    rw [show (3 : ℝ) - 1 = 2 by norm_num, Real.rpow_two, pow_two]
  have h : x * y * z ≤ L * (X * X) := by
    have e1 : x * z = min x z * max x z := (min_mul_max x z).symm
    have h1 := Nat.mul_le_mul (Nat.mul_le_mul hmin hmax) hy
    rw [← e1] at h1
    calc x * y * z = x * z * y := by ring
      _ ≤ X * L * X := h1
      _ = L * (X * X) := by ring
  have h' : ((x * y * z : Nat) : ℝ) ≤ ((L * (X * X) : Nat) : ℝ) := Nat.cast_le.2 h
  rw [e, one_mul]
  rw [Nat.cast_mul L, Nat.cast_mul X] at h'
  exact h'

example : ∃ (cost : Call → ℝ) (a b ω : ℝ), 0 ≤ a ∧ 0 ≤ b ∧ 2 < ω ∧ ω ≤ 3 ∧ (∀ n' m', cost (.solve n' m') ≤ a * (n' * n' * m' : Nat)) ∧ FastMul cost b ω ∧
    cost (.addmul 3 4 5) = 60 :=
  ⟨fun c => c.size, 1, 1, 3, by norm_num, by norm_num, by norm_num, by norm_num, fun n' m' => by simp [Call.size], fastMul_schoolbook, by norm_num [Call.size]⟩

end M4rie.Props
