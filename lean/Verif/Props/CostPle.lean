import Verif.Proofs.CostPle
import Verif.Props.PleRec
import Verif.Props.CostTrsm

/-!
# C82: elimination by PLE decomposition is asymptotically fast

README.md: "asymptotically fast row echelon form computation … via PLE decomposition".  Decomposing and eliminating are reduced to multiplications, to small systems
and to narrow or small matrices which are decomposed directly, and take the time of a multiplication, up to a constant factor, with the same exponent.  Permuting rows
and columns and copying are not counted.
-/

namespace M4rie.Props
open M4rie M4rie.Spec

variable {ff : Gf2e} [IsField ff]

/-- What is claimed about the calls `l` that a decomposition of an `m × n` matrix, followed by solving at most `k` triangular systems, is reduced to. -/
structure FastPle (k : Nat) (small : Nat → Nat → Bool) (m n : Nat) (l : List Call) : Prop where
  /-- the calls together are no larger than decomposing directly, plus the same for each system -/
  size : (l.map Call.size).sum ≤ (k + 1) * (m * n * n)
  /-- a matrix is decomposed directly only if it has at most 64 columns or is small (ple.c:96) -/
  direct : ∀ m' n', .ple m' n' ∈ l → n' ≤ 64 ∨ small m' n' = true
  /-- systems are solved directly only if one dimension is at most 512 -/
  solve : ∀ n' m', .solve n' m' ∈ l → n' ≤ 512 ∨ m' ≤ 512
  /-- both dimensions at most `N`: if decomposing and solving directly are at most cubic, small matrices have at most `cut` entries and multiplication is fast with
  exponent `ω`, `2 < ω ≤ 3`, then the time is `O(N^ω)`. -/
  fast : ∀ (N cut : Nat) (cost : Call → ℝ) (a b ω : ℝ), 1 ≤ N → m ≤ N → n ≤ N → 0 ≤ a → 0 ≤ b → 2 < ω → ω ≤ 3 →
    (∀ m' n', m' ≤ N → n' ≤ N → small m' n' = true → m' * n' ≤ cut) → (∀ m' n', cost (.ple m' n') ≤ a * (m' * n' * n' : Nat)) →
    (∀ n' m', cost (.solve n' m') ≤ a * (n' * n' * m' : Nat)) → FastMul cost b ω →
    callsCost cost l ≤ (4 * b * (14 + (2 : ℝ) ^ (ω - 1)) / ((2 : ℝ) ^ (ω - 1) - 2) ^ 2 + k * (16 * b / ((2 : ℝ) ^ (ω - 1) - 2))) * (N : ℝ) ^ ω +
      (a * (1088 + cut) + 258064 * b + k * (512 * a + 129032 * b)) * (N : ℝ) ^ 2

theorem PleCalls.fastPle {small : Nat → Nat → Bool} {m n : Nat} {l : List Call} (h : PleCalls small m n l) : FastPle 0 small m n l where
  size := by rw [Nat.zero_add, Nat.one_mul]; exact h.size
  direct := h.direct.1
  solve := h.direct.2
  fast N cut cost a b ω h1 h2 h3 ha hb hω hω3 hs hp hso hm := by
    have := h.fast (cost := cost) hs ha hb hω hω3 hp hso hm h1 h2 h3
    simpa using this

theorem PleCalls.fastEch {small : Nat → Nat → Bool} {m n r : Nat} {l : List Call} (h : PleCalls small m n l) (h1 : r ≤ m) (h2 : r ≤ n) :
    FastPle 2 small m n (l ++ echCalls n r) where
  size := by
    rw [List.map_append, List.sum_append]
    have := h.size
    have := echCalls_size h1 h2
    omega
  direct m' n' hh := by
    rcases List.mem_append.1 hh with hh | hh
    · exact h.direct.1 _ _ hh
    · exact absurd hh (echCalls_direct.1 _ _)
  solve n' m' hh := by
    rcases List.mem_append.1 hh with hh | hh
    · exact h.direct.2 _ _ hh
    · exact echCalls_direct.2 _ _ hh
  fast N cut cost a b ω g1 g2 g3 ha hb hω hω3 hs hp hso hm := by
    have e1 := h.fast (cost := cost) hs ha hb hω hω3 hp hso hm g1 g2 g3
    have e2 := echCalls_fast (cost := cost) ha hb hω hω3 hso hm g1 h2 g3
    rw [callsCost_append]
    push_cast
    linarith

section
variable {env : PleEnv} (hc : CompressOk env.compress) (hcb : env.cb.Ok ff.degree)
include hc hcb

theorem slicePleL_logs (X : Mat ff) (P Q : Nat → Nat) :
    ∃ res l, mzdSlicePle? env X.spack P Q = some res ∧ mzdSlicePleL? env X.spack P Q = some (res, l) ∧ PleCalls env.small X.nrows X.ncols l :=
  mzdSlicePleFL_logs hc hcb _ X P Q (Nat.lt_succ_self _)

/-- **C82** `_mzd_slice_ple(A,P,Q,cutoff)`; `res` is what C33 is about. -/
theorem C82_slice_ple {A : Slice} {M : Nat → Nat → Elem ff} (h : SRep A M) (P Q : Nat → Nat) :
    ∃ res l, mzdSlicePle? env A P Q = some res ∧ mzdSlicePleL? env A P Q = some (res, l) ∧ FastPle 0 env.small A.nrows A.ncols l := by
  obtain ⟨res, l, h1, h2, h3⟩ := slicePleL_logs hc hcb (⟨A.nrows, A.ncols, A.fid, M⟩ : Mat ff) P Q
  rw [← h.eq_spack'] at h1 h2
  exact ⟨res, l, h1, h2, PleCalls.fastPle h3⟩

/-- **C82** `_mzed_ple(A,P,Q,cutoff)` -/
theorem C82_ple {A : Mzed} {M : Nat → Nat → Elem ff} (h : Rep A M) (P Q : Nat → Nat) :
    ∃ res l, mzedPle? env A P Q = some res ∧ mzedPleL? env A P Q = some (res, l) ∧ FastPle 0 env.small A.nrows A.ncols l := by
  obtain ⟨res, e, -⟩ := C33_ple hc hcb h P Q
  unfold mzedPle? at e ⊢
  unfold mzedPleL?
  by_cases hb : 64 < A.ncols ∧ ¬ env.small A.nrows A.ncols = true
  · rw [if_pos hb] at e ⊢
    rw [if_pos hb]
    let X : Mat ff := ⟨A.nrows, A.ncols, A.fid, M⟩
    have hX : A = X.pack := h.eq_pack'
    rw [hX, sliceNew_spack, Option.bind_some] at e ⊢
    rw [Option.bind_some]
    obtain ⟨res1, l, h1, h2, h3⟩ := slicePleL_logs hc hcb X.trim P Q
    rw [h1, Option.bind_some] at e ⊢
    rw [h2, Option.bind_some]
    obtain ⟨C, eC, -⟩ := Option.map_eq_some_iff.1 e
    dsimp only
    rw [eC]
    exact ⟨_, _, rfl, rfl, PleCalls.fastPle h3⟩
  · rw [if_neg hb, if_neg hb]
    exact ⟨_, _, rfl, rfl, PleCalls.fastPle (.base (by
      by_cases h64 : A.ncols ≤ 64
      · exact Or.inl h64
      · exact Or.inr (not_not.1 fun hh => hb ⟨by omega, hh⟩)))⟩

/-- **C82** `_mzd_slice_pluq(A,P,Q,cutoff)` -/
theorem C82_slice_pluq {A : Slice} {M : Nat → Nat → Elem ff} (h : SRep A M) (P Q : Nat → Nat) :
    ∃ res l, mzdSlicePluq? env A P Q = some res ∧ mzdSlicePluqL? env A P Q = some (res, l) ∧ FastPle 0 env.small A.nrows A.ncols l := by
  obtain ⟨res, l, h1, h2, h3⟩ := C82_slice_ple hc hcb h P Q
  unfold mzdSlicePluq? mzdSlicePluqL?
  rw [h1, h2]
  exact ⟨_, _, rfl, rfl, h3⟩

theorem sliceEchelonizePleL_logs (X : Mat ff) (full : Bool) :
    ∃ res l, mzdSliceEchelonizePle? env X.spack full = some res ∧ mzdSliceEchelonizePleL? env X.spack full = some (res, l) ∧
      FastPle (if full then 2 else 0) env.small X.nrows X.ncols l := by
  obtain ⟨R, r', e, -⟩ := mzdSliceEchelonizePle_spack hc hcb X full
  unfold mzdSliceEchelonizePle? at e ⊢
  unfold mzdSliceEchelonizePleL?
  obtain ⟨res1, l, h1, h2, h3⟩ := slicePleL_logs hc hcb X (mzpInit X.spack.nrows).val (mzpInit X.spack.ncols).val
  obtain ⟨Z, P, Q, r, e1, s1, d1, f1, -⟩ := mzdSlicePle_spack hc hcb X (mzpInit X.spack.nrows).val (mzpInit X.spack.ncols).val
  obtain rfl := Option.some.inj (h1.symm.trans e1)
  cases full with
  | false =>
    simp only [Bool.false_eq_true, if_false]
    rw [h1, h2]
    exact ⟨_, _, rfl, rfl, PleCalls.fastPle h3⟩
  | true =>
    simp only [if_true] at e ⊢
    unfold mzdSlicePluq? at e ⊢
    unfold mzdSlicePluqL?
    rw [h1, Option.map_some, Option.bind_some] at e ⊢
    rw [h2, Option.map_some, Option.bind_some]
    dsimp only at e ⊢
    rw [echPleSolveL_eq]
    generalize hV : (if r ≠ 0 ∧ r < Z.spack.nrows then
      sliceSetWindow Z.spack 0 0 (mzdSliceApplyPRightTransTri (mzdSliceWindow Z.spack 0 0 r Z.spack.ncols) ⟨Z.spack.ncols, Q⟩)
      else mzdSliceApplyPRightTransTri Z.spack ⟨Z.spack.ncols, Q⟩) = V at *
    have hc' : V.ncols = X.ncols := by
      rw [← hV]
      have : Z.spack.ncols = X.ncols := s1.ncols
      split_ifs
      · exact this
      · exact this
    cases hs : echPleSolve? env.cb V r with
    | none => rw [hs] at e; exact absurd e (by simp)
    | some W =>
      rw [hc']
      exact ⟨_, _, rfl, rfl, PleCalls.fastEch h3 d1.le d1.rle⟩

/-- **C82** `mzd_slice_echelonize_ple(A,full)`; the result is that of C36. -/
theorem C82_slice_echelonize_ple {A : Slice} {M : Nat → Nat → Elem ff} (h : SRep A M) (full : Bool) :
    ∃ res l, mzdSliceEchelonizePle? env A full = some res ∧ mzdSliceEchelonizePleL? env A full = some (res, l) ∧
      FastPle (if full then 2 else 0) env.small A.nrows A.ncols l := by
  obtain ⟨res, l, h1, h2, h3⟩ := sliceEchelonizePleL_logs hc hcb (⟨A.nrows, A.ncols, A.fid, M⟩ : Mat ff) full
  rw [← h.eq_spack'] at h1 h2
  exact ⟨res, l, h1, h2, h3⟩

/-- **C82** `mzed_echelonize_ple(A,full)` -/
theorem C82_echelonize_ple {A : Mzed} {M : Nat → Nat → Elem ff} (h : Rep A M) (full : Bool) :
    ∃ res l, mzedEchelonizePle? env A full = some res ∧ mzedEchelonizePleL? env A full = some (res, l) ∧
      FastPle (if full then 2 else 0) env.small A.nrows A.ncols l := by
  obtain ⟨R, M', piv, e, -⟩ := C36_echelonize_ple hc hcb h full
  unfold mzedEchelonizePle? at e ⊢
  unfold mzedEchelonizePleL?
  let X : Mat ff := ⟨A.nrows, A.ncols, A.fid, M⟩
  have hX : A = X.pack := h.eq_pack'
  rw [hX, sliceNew_spack, Option.bind_some] at e ⊢
  rw [Option.bind_some]
  obtain ⟨res1, l, h1, h2, h3⟩ := sliceEchelonizePleL_logs hc hcb X.trim full
  rw [h1, Option.bind_some] at e ⊢
  rw [h2, Option.bind_some]
  obtain ⟨C, eC, -⟩ := Option.map_eq_some_iff.1 e
  dsimp only
  rw [eC]
  exact ⟨_, _, rfl, rfl, h3⟩

end

/-- What is claimed about the calls `l` of `mzed_echelonize` for an `m × n` matrix over a field of degree `deg`; `medium` is the comparison of echelonform.c:29. -/
structure FastEch (small medium : Nat → Nat → Bool) (deg m n : Nat) (l : List Call) : Prop where
  /-- the calls together are at most three times as large as eliminating entry by entry -/
  size : (l.map Call.size).sum ≤ 3 * (m * n * n)
  /-- the matrix is eliminated directly only if it has fewer rows than the degree of the field or is of medium size -/
  elim : ∀ m' n', .elim m' n' ∈ l → m' = m ∧ n' = n ∧ (m < deg ∨ medium m n = true)
  /-- a part is decomposed directly only if it has at most 64 columns or is small (ple.c:96) -/
  direct : ∀ m' n', .ple m' n' ∈ l → n' ≤ 64 ∨ small m' n' = true
  /-- systems are solved directly only if one dimension is at most 512 -/
  solve : ∀ n' m', .solve n' m' ∈ l → n' ≤ 512 ∨ m' ≤ 512
  /-- as for `FastPle`, with two systems -/
  fast : ∀ (N cut : Nat) (cost : Call → ℝ) (a b ω : ℝ), 1 ≤ N → m ≤ N → n ≤ N → 0 ≤ a → 0 ≤ b → 2 < ω → ω ≤ 3 →
    (∀ m' n', m' ≤ N → n' ≤ N → small m' n' = true ∨ medium m' n' = true → m' * n' ≤ cut) → (∀ m' n', cost (.elim m' n') ≤ a * (m' * n' * min m' n' : Nat)) →
    (∀ m' n', cost (.ple m' n') ≤ a * (m' * n' * n' : Nat)) → (∀ n' m', cost (.solve n' m') ≤ a * (n' * n' * m' : Nat)) → FastMul cost b ω →
    callsCost cost l ≤ (4 * b * (14 + (2 : ℝ) ^ (ω - 1)) / ((2 : ℝ) ^ (ω - 1) - 2) ^ 2 + 2 * (16 * b / ((2 : ℝ) ^ (ω - 1) - 2))) * (N : ℝ) ^ ω +
      (a * (1088 + cut) + 258064 * b + 2 * (512 * a + 129032 * b)) * (N : ℝ) ^ 2

theorem callsCost_eq_zero {cost : Call → ℝ} (h0 : ∀ c, 0 ≤ cost c) : ∀ {l : List Call}, callsCost cost l ≤ 0 → ∀ c ∈ l, cost c = 0
  | [], _, _, hc => absurd hc List.not_mem_nil
  | d :: l, h, c, hc => by
    have e : callsCost cost (d :: l) = cost d + callsCost cost l := rfl
    have h1 : 0 ≤ callsCost cost l := by
      unfold callsCost
      exact List.sum_nonneg fun x hx => by
        obtain ⟨c', -, rfl⟩ := List.mem_map.1 hx
        exact h0 c'
    have h2 := h0 d
    rcases List.mem_cons.1 hc with rfl | hc
    · linarith
    · exact callsCost_eq_zero h0 (by linarith) c hc

/-- a call which is given no bound does not occur -/
theorem FastPle.no_elim {k : Nat} {small : Nat → Nat → Bool} {m n : Nat} {l : List Call} (h : FastPle k small m n l) : ∀ m' n', .elim m' n' ∉ l := by
  intro m' n' hm
  let cost : Call → ℝ := fun c => match c with
    | .elim _ _ => 1
    | _ => 0
  have h1 := h.fast (m + n + 1) ((m + n + 1) * (m + n + 1)) cost 0 0 3 (by omega) (by omega) (by omega) le_rfl le_rfl (by norm_num) (by norm_num)
    (fun a b ha hb _ => Nat.mul_le_mul ha hb) (fun _ _ => by simp [cost]) (fun _ _ => by simp [cost]) (fun x y z X L _ _ _ _ => by simp [cost])
  have h2 : callsCost cost l ≤ 0 := by simpa using h1
  have h3 := callsCost_eq_zero (cost := cost) (fun c => by cases c <;> simp [cost]) h2 _ hm
  exact one_ne_zero h3

/-- **C82** `mzed_echelonize(A,full)`; the result is that of C53. -/
theorem C82_echelonize {env : PleEnv} (hc : CompressOk env.compress) (hcb : env.cb.Ok ff.degree) (optK : Nat) (smallNj : Bool) (medium : Nat → Nat → Bool)
    {A : Mzed} {M : Nat → Nat → Elem ff} (h : Rep A M) (full : Bool) :
    ∃ res l, mzedEchelonize? env optK smallNj medium A full = some res ∧ mzedEchelonizeL? env optK smallNj medium A full = some (res, l) ∧
      FastEch env.small medium ff.degree A.nrows A.ncols l := by
  have hdeg : A.ff.degree = ff.degree := by rw [h.ffEq]
  have h16 : ff.degree ≤ 16 := (Fact.out : FFOK ff).min.e16
  have key : A.nrows < ff.degree ∨ medium A.nrows A.ncols = true → FastEch env.small medium ff.degree A.nrows A.ncols [.elim A.nrows A.ncols] := fun hd =>
    { size := by
        have : A.nrows * A.ncols * min A.nrows A.ncols ≤ A.nrows * A.ncols * A.ncols := Nat.mul_le_mul_left _ (min_le_right _ _)
        simp only [List.map_singleton, List.sum_singleton, Call.size]
        omega
      elim := fun m' n' hh => by
        rw [List.mem_singleton] at hh
        cases hh
        exact ⟨rfl, rfl, hd⟩
      direct := fun m' n' hh => by rw [List.mem_singleton] at hh; cases hh
      solve := fun m' n' hh => by rw [List.mem_singleton] at hh; cases hh
      fast := fun N cut cost a b ω hN hm hn ha hb hω hω3 hs he _ _ _ => by
        have ht : (2 : ℝ) < (2 : ℝ) ^ (ω - 1) := by
          have := Real.rpow_lt_rpow_of_exponent_lt (x := 2) (show (1 : ℝ) < 2 by norm_num) (show 1 < ω - 1 by linarith)
          rwa [Real.rpow_one] at this
        rw [callsCost_one]
        have h1 : A.nrows * A.ncols * min A.nrows A.ncols ≤ (1088 + cut) * (N * N) := by
          rcases hd with hd | hd
          · calc A.nrows * A.ncols * min A.nrows A.ncols ≤ 16 * N * 16 := Nat.mul_le_mul (Nat.mul_le_mul (by omega) hn) ((min_le_left _ _).trans (by omega))
              _ = 256 * (N * 1) := by ring
              _ ≤ (1088 + cut) * (N * N) := Nat.mul_le_mul (by omega) (Nat.mul_le_mul_left _ hN)
          · calc A.nrows * A.ncols * min A.nrows A.ncols ≤ cut * N := Nat.mul_le_mul (hs _ _ hm hn (Or.inr hd)) ((min_le_right _ _).trans hn)
              _ = cut * (N * 1) := by ring
              _ ≤ (1088 + cut) * (N * N) := Nat.mul_le_mul (by omega) (Nat.mul_le_mul_left _ hN)
        have h2 : ((A.nrows * A.ncols * min A.nrows A.ncols : Nat) : ℝ) ≤ (((1088 + cut) * (N * N) : Nat) : ℝ) := Nat.cast_le.2 h1
        have h3 := mul_le_mul_of_nonneg_left h2 ha
        have h4 := he A.nrows A.ncols
        have h5 : 0 ≤ (4 * b * (14 + (2 : ℝ) ^ (ω - 1)) / ((2 : ℝ) ^ (ω - 1) - 2) ^ 2 + 2 * (16 * b / ((2 : ℝ) ^ (ω - 1) - 2))) * (N : ℝ) ^ ω :=
          mul_nonneg (add_nonneg (div_nonneg (mul_nonneg (by linarith) (by linarith)) (sq_nonneg _))
            (mul_nonneg (by norm_num) (div_nonneg (by linarith) (by linarith)))) (Real.rpow_nonneg (Nat.cast_nonneg _) _)
        have h6 : 0 ≤ (258064 * b + 2 * (512 * a + 129032 * b)) * (N : ℝ) ^ 2 := mul_nonneg (by linarith) (sq_nonneg _)
        have h7 : a * (((1088 + cut) * (N * N) : Nat) : ℝ) = a * (1088 + cut) * (N : ℝ) ^ 2 := by
          push_cast
          ring
        rw [h7] at h3
        linarith }
  unfold mzedEchelonize? mzedEchelonizeL?
  rw [hdeg]
  by_cases h1 : ff.degree > A.nrows
  · rw [if_pos h1, if_pos h1]
    exact ⟨_, _, rfl, rfl, key (Or.inl h1)⟩
  rw [if_neg h1, if_neg h1]
  by_cases h2 : medium A.nrows A.ncols = true
  · rw [if_pos h2, if_pos h2]
    exact ⟨_, _, rfl, rfl, key (Or.inr h2)⟩
  rw [if_neg h2, if_neg h2]
  obtain ⟨res, l, e1, e2, e3⟩ := C82_echelonize_ple hc hcb h full
  refine ⟨res, l, e1, e2, ?_⟩
  exact
    { size := e3.size.trans (Nat.mul_le_mul_right _ (by split_ifs <;> omega))
      elim := fun m' n' hh => absurd hh (e3.no_elim m' n')
      direct := e3.direct
      solve := e3.solve
      fast := fun N cut cost a b ω hN hm hn ha hb hω hω3 hs _ hp hso hmul => by
        have ht : (2 : ℝ) < (2 : ℝ) ^ (ω - 1) := by
          have := Real.rpow_lt_rpow_of_exponent_lt (x := 2) (show (1 : ℝ) < 2 by norm_num) (show 1 < ω - 1 by linarith)
          rwa [Real.rpow_one] at this
        have h5 : 0 ≤ 16 * b / ((2 : ℝ) ^ (ω - 1) - 2) := div_nonneg (by linarith) (by linarith)
        have h6 : (0 : ℝ) ≤ (N : ℝ) ^ ω := Real.rpow_nonneg (Nat.cast_nonneg _) _
        refine (e3.fast N cut cost a b ω hN hm hn ha hb hω hω3 (fun m' n' g1 g2 g3 => hs m' n' g1 g2 (Or.inl g3)) hp hso hmul).trans (add_le_add
          (mul_le_mul_of_nonneg_right (add_le_add_right (mul_le_mul_of_nonneg_right ?_ h5) _) h6)
          (mul_le_mul_of_nonneg_right (add_le_add_right (mul_le_mul_of_nonneg_right ?_ (by linarith)) _) (sq_nonneg _)))
        · split_ifs <;> norm_num
        · split_ifs <;> norm_num }

/-! ### Cases that meet the hypotheses -/

/-- the comparison of ple.c:96: below 2^64 a small matrix has at most `cutoff` entries -/
theorem pleSmall_cut {w l2 N : Nat} {cutoff : Int} (hw : 0 < w) (hc : 0 < cutoff) (hc2 : cutoff < 2 ^ 64) (hN : w * N * N < 2 ^ 64) :
    ∀ m n, m ≤ N → n ≤ N → pleSmall w l2 cutoff m n = true → m * n ≤ cutoff.toNat := by
  intro m n hm hn h
  unfold pleSmall at h
  have h1 : w * n * m ≤ w * N * N := Nat.mul_le_mul (Nat.mul_le_mul_left _ hn) hm
  have h2 : n * m ≤ w * n * m := Nat.mul_le_mul_right _ (Nat.le_mul_of_pos_left _ hw)
  rw [if_neg (by omega), decide_eq_true_eq, Int.emod_eq_of_lt (by omega) (by omega), Int.emod_eq_of_lt (by omega) (by omega)] at h
  rw [Nat.mul_comm m n]
  omega

-- a matrix of 1000 × 2000 ones over GF(2^8), a cutoff of 2^20 bits, the schoolbook method
example : ∃ ff, ∃ _ : IsField ff, ∃ env : PleEnv, CompressOk env.compress ∧ env.cb.Ok ff.degree ∧ ∃ (A : Mzed) (M : Nat → Nat → Elem ff), Rep A M ∧
    A.nrows = 1000 ∧ A.ncols = 2000 ∧ env.small 1000 2000 = false ∧
    ∃ (N cut : Nat) (cost : Call → ℝ) (a b ω : ℝ), 1 ≤ N ∧ 1000 ≤ N ∧ 2000 ≤ N ∧ 0 ≤ a ∧ 0 ≤ b ∧ 2 < ω ∧ ω ≤ 3 ∧
    (∀ m' n', m' ≤ N → n' ≤ N → env.small m' n' = true → m' * n' ≤ cut) ∧ (∀ m' n', cost (.ple m' n') ≤ a * (m' * n' * n' : Nat)) ∧
    (∀ n' m', cost (.solve n' m') ≤ a * (n' * n' * m' : Nat)) ∧ FastMul cost b ω ∧ cost (.addmul 3 4 5) = 60 := by
  obtain ⟨ff, h, hd⟩ := exists_aes
  let X : Mat ff := ⟨1000, 2000, 0, fun _ _ => 1⟩
  exact ⟨ff, h, ⟨grayCode, pleSmall 8 0 1048576, pleEnv0.compress⟩, pleEnv0_ok, grayCode_ok _, X.pack, _, pack_rep X, rfl, rfl, by decide +kernel,
    2000, 1048576, fun c => c.size, 1, 1, 3, by norm_num, by norm_num, by norm_num, by norm_num, by norm_num, by norm_num, by norm_num,
    pleSmall_cut (by norm_num) (by norm_num) (by norm_num) (by norm_num), fun _ _ => by simp [Call.size], fun _ _ => by simp [Call.size], fastMul_schoolbook,
    by norm_num [Call.size]⟩

-- `mzed_echelonize` with the comparison of echelonform.c:29 for GF(2^8) and the same cutoff
example : ∃ N cut : Nat, 1 ≤ N ∧ 1000 ≤ N ∧ 2000 ≤ N ∧ cut = 1048576 ∧ ∀ m' n', m' ≤ N → n' ≤ N →
    pleSmall 8 0 1048576 m' n' = true ∨ (fun m n => decide (m * n * 8 ≤ 2 * 1048576)) m' n' = true → m' * n' ≤ cut := by
  refine ⟨2000, 1048576, by norm_num, by norm_num, by norm_num, rfl, fun m' n' hm hn h => ?_⟩
  rcases h with h | h
  · exact pleSmall_cut (N := 2000) (by norm_num) (by norm_num) (by norm_num) (by norm_num) m' n' hm hn h
  · have := of_decide_eq_true h
    omega

end M4rie.Props
