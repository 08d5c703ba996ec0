import Verif.Model.Trsm
import Verif.Proofs.NjEchelon

/-! Triangular solving on packed matrices. -/

namespace M4rie
open M4rie.Spec

section
variable {K : Type*} [Field K] {n m : Nat} {L X Y B : Nat → Nat → K}

theorem SolvesLower.unique (hd : ∀ i, i < n → L i i ≠ 0) (h : SolvesLower n m L X B) (h' : SolvesLower n m L Y B) :
    ∀ i j, i < n → j < m → X i j = Y i j := by
  intro i
  induction i using Nat.strong_induction_on with
  | _ i ih =>
    intro j hi hj
    have h1 := h i j hi hj
    have h2 := h' i j hi hj
    rw [Finset.sum_range_succ] at h1 h2
    rw [Finset.sum_congr rfl (fun k hk => by rw [ih k (Finset.mem_range.1 hk) j (by have := Finset.mem_range.1 hk; omega) hj])] at h1
    rw [← h2] at h1
    exact mul_left_cancel₀ (hd i hi) (add_left_cancel h1)

theorem sum_Ico_first {i n : Nat} (h : i < n) (f : Nat → K) : ∑ k ∈ Finset.Ico i n, f k = f i + ∑ k ∈ Finset.Ico (i + 1) n, f k :=
  Finset.sum_eq_sum_Ico_succ_bot h f

theorem SolvesUpper.unique (hd : ∀ i, i < n → L i i ≠ 0) (h : SolvesUpper n m L X B) (h' : SolvesUpper n m L Y B) :
    ∀ i j, i < n → j < m → X i j = Y i j := by
  have key : ∀ d i, i + d + 1 = n → ∀ j, j < m → X i j = Y i j := by
    intro d
    induction d using Nat.strong_induction_on with
    | _ d ih =>
      intro i hi j hj
      have h1 := h i j (by omega) hj
      have h2 := h' i j (by omega) hj
      rw [sum_Ico_first (by omega)] at h1 h2
      rw [Finset.sum_congr rfl (fun k hk => by
        have := Finset.mem_Ico.1 hk
        rw [ih (n - 1 - k) (by omega) k (by omega) j hj])] at h1
      rw [← h2] at h1
      exact mul_left_cancel₀ (hd i (by omega)) (add_right_cancel h1)
  intro i j hi hj
  exact key (n - 1 - i) i (by omega) j hj
end

variable {ff : Gf2e} [IsField ff]

theorem elem_add_self (x : Elem ff) : x + x = 0 := by
  apply Elem.ext'; show x.1 ^^^ x.1 = 0#64; exact BitVec.xor_self

theorem addMulLoop_pack (X : Mat ff) (hX : 0 < X.ncols) (i : Nat) (f : Nat → Elem ff) (g : Nat → Nat) :
    ∀ n, (∀ k, k < n → g k ≠ i) →
      forN (fun k B => mzedAddMultipleOfRow B i B (g k) (f k).1 0) n X.pack =
        (X.addRowOf i (fun j => ∑ k ∈ Finset.range n, f k * X.e (g k) j)).pack := by
  intro n
  induction n with
  | zero =>
    intro _
    show X.pack = _
    congr 1
    unfold Mat.addRowOf
    ext <;> simp
  | succ n ih =>
    intro hg
    show mzedAddMultipleOfRow (forN _ n X.pack) i (forN _ n X.pack) (g n) (f n).1 0 = _
    rw [ih (fun k hk => hg k (by omega))]
    rw [addMul_pack _ _ _ _ _ (by exact hX)]
    congr 1
    unfold Mat.addRowOf Mat.addMul
    simp only [Mat.mk.injEq, true_and]
    funext a j
    have hgn := hg n (by omega)
    by_cases h : a = i ∧ j < X.ncols
    · simp only [h, hgn, Nat.zero_le, and_self, false_and, if_true, if_false, Finset.sum_range_succ, add_assoc]
    · have h' : ¬ (a = i ∧ 0 ≤ j ∧ j < X.ncols) := by tauto
      rw [if_neg h', if_neg h, if_neg h]

/-- outside the `nr × nc` part nothing changes -/
def Frame (X Y : Mat ff) : Prop := ∀ i j, ¬ (i < Y.nrows ∧ j < Y.ncols) → X.e i j = Y.e i j

/-- state of the forward substitution: rows `< t` are solved, the others untouched -/
structure LowerInv (L B X : Mat ff) (t : Nat) : Prop where
  same : SameMat X B
  frame : Frame X B
  rest : ∀ i j, t ≤ i → X.e i j = B.e i j
  solved : ∀ i j, i < t → i < B.nrows → j < B.ncols → ∑ k ∈ Finset.range (i + 1), L.e i k * X.e k j = B.e i j

theorem trsmLowerNaive_pack (L B : Mat ff) (hB : 0 < B.ncols) (hd : ∀ i, i < B.nrows → L.e i i ≠ 0) :
    ∃ X : Mat ff, mzedTrsmLowerLeftNaive L.pack B.pack = X.pack ∧ SameMat X B ∧ Frame X B ∧
      SolvesLower B.nrows B.ncols L.e X.e B.e := by
  have key := forN_inv (fun t (E : Mzed) => ∃ X : Mat ff, E = X.pack ∧ LowerInv L B X t)
    (fun i E =>
      let E := forN (fun k E => mzedAddMultipleOfRow E i E k (mzedReadElem L.pack i k) 0) i E
      mzedRescaleRow E i 0 (gf2eInv L.pack.ff (mzedReadElem L.pack i i))) B.pack B.nrows
    ⟨B, rfl, SameMat.refl B, fun _ _ _ => rfl, fun _ _ _ => rfl, fun _ _ h => absurd h (by omega)⟩ ?_
  · obtain ⟨X, h1, h2⟩ := key
    exact ⟨X, h1, h2.same, h2.frame, fun i j hi hj => h2.solved i j hi hi hj⟩
  · rintro i E hi ⟨X, rfl, hX⟩
    have hn := hX.same.ncols
    simp only [read_pack, pack_ff]
    rw [addMulLoop_pack X (by rw [hn]; exact hB) i (fun k => L.e i k) (fun k => k) i (fun k hk => by omega), inv_pack,
      rescale_pack _ _ _ (by show 0 < X.ncols; rw [hn]; exact hB)]
    refine ⟨_, rfl, ⟨hX.same.nrows, hX.same.ncols, hX.same.fid⟩, ?_, ?_, ?_⟩
    · intro a j haj
      unfold Mat.rescale Mat.addRowOf
      have : ¬ (a = i ∧ j < X.ncols) := by rw [hn]; intro h; exact haj ⟨by omega, h.2⟩
      have h' : ¬ (a = i ∧ 0 ≤ j ∧ j < X.ncols) := by tauto
      simp only [h', this, if_false]
      exact hX.frame a j haj
    · intro a j ha
      unfold Mat.rescale Mat.addRowOf
      have h1 : ¬ a = i := by omega
      simp only [h1, false_and, if_false]
      exact hX.rest a j (by omega)
    · intro a j ha han hj
      have hrow : ∀ k, k < i → (((X.addRowOf i fun j => ∑ k ∈ Finset.range i, L.e i k * X.e k j).rescale i 0 (L.e i i)⁻¹).e k j) = X.e k j := by
        intro k hk
        unfold Mat.rescale Mat.addRowOf
        have h1 : ¬ k = i := by omega
        simp only [h1, false_and, if_false]
      by_cases hai : a = i
      · subst hai
        rw [Finset.sum_range_succ, Finset.sum_congr rfl (fun k hk => by rw [hrow k (Finset.mem_range.1 hk)])]
        have he : (((X.addRowOf a fun j => ∑ k ∈ Finset.range a, L.e a k * X.e k j).rescale a 0 (L.e a a)⁻¹).e a j) =
            (L.e a a)⁻¹ * (X.e a j + ∑ k ∈ Finset.range a, L.e a k * X.e k j) := by
          unfold Mat.rescale Mat.addRowOf
          simp [hn, hj]
        rw [he, ← mul_assoc, mul_inv_cancel₀ (hd a hi), one_mul, hX.rest a j le_rfl, add_comm, add_assoc, elem_add_self, add_zero]
      · rw [Finset.sum_congr rfl (fun k hk => by rw [hrow k (by have := Finset.mem_range.1 hk; omega)])]
        exact hX.solved a j (by omega) han hj

/-- state of the backward substitution: rows `≥ n-t` are solved -/
structure UpperInv (U B X : Mat ff) (t : Nat) : Prop where
  same : SameMat X B
  frame : Frame X B
  rest : ∀ i j, i + t < B.nrows → X.e i j = B.e i j
  solved : ∀ i j, B.nrows ≤ i + t → i < B.nrows → j < B.ncols → ∑ k ∈ Finset.Ico i B.nrows, U.e i k * X.e k j = B.e i j

theorem trsmUpperNaive_pack (U B : Mat ff) (hB : 0 < B.ncols) (hd : ∀ i, i < B.nrows → U.e i i ≠ 0) :
    ∃ X : Mat ff, mzedTrsmUpperLeftNaive U.pack B.pack = X.pack ∧ SameMat X B ∧ Frame X B ∧
      SolvesUpper B.nrows B.ncols U.e X.e B.e := by
  have key := forN_inv (fun t (E : Mzed) => ∃ X : Mat ff, E = X.pack ∧ UpperInv U B X t)
    (fun t E =>
      let i := B.nrows - 1 - t
      let E := forN (fun d E => mzedAddMultipleOfRow E i E (i + 1 + d) (mzedReadElem U.pack i (i + 1 + d)) 0) (B.nrows - (i + 1)) E
      mzedRescaleRow E i 0 (gf2eInv U.pack.ff (mzedReadElem U.pack i i))) B.pack B.nrows
    ⟨B, rfl, SameMat.refl B, fun _ _ _ => rfl, fun _ _ _ => rfl, fun _ _ h h' => absurd h (by omega)⟩ ?_
  · obtain ⟨X, h1, h2⟩ := key
    exact ⟨X, h1, h2.same, h2.frame, fun i j hi hj => h2.solved i j (by omega) hi hj⟩
  · rintro t E ht ⟨X, rfl, hX⟩
    have hn := hX.same.ncols
    simp only [read_pack, pack_ff]
    obtain ⟨i, hi⟩ : ∃ i, B.nrows - 1 - t = i := ⟨_, rfl⟩
    rw [hi]
    rw [addMulLoop_pack X (by rw [hn]; exact hB) i (fun d => U.e i (i + 1 + d)) (fun d => i + 1 + d) (B.nrows - (i + 1)) (fun k hk => by omega), inv_pack,
      rescale_pack _ _ _ (by show 0 < X.ncols; rw [hn]; exact hB)]
    have hsum : ∀ j, ∑ d ∈ Finset.range (B.nrows - (i + 1)), U.e i (i + 1 + d) * X.e (i + 1 + d) j =
        ∑ k ∈ Finset.Ico (i + 1) B.nrows, U.e i k * X.e k j := by
      intro j; rw [Finset.sum_Ico_eq_sum_range]
    refine ⟨_, rfl, ⟨hX.same.nrows, hX.same.ncols, hX.same.fid⟩, ?_, ?_, ?_⟩
    · intro a j haj
      unfold Mat.rescale Mat.addRowOf
      have : ¬ (a = i ∧ j < X.ncols) := by rw [hn]; intro h; exact haj ⟨by omega, h.2⟩
      have h' : ¬ (a = i ∧ 0 ≤ j ∧ j < X.ncols) := by tauto
      simp only [h', this, if_false]
      exact hX.frame a j haj
    · intro a j ha
      unfold Mat.rescale Mat.addRowOf
      have h1 : ¬ a = i := by omega
      simp only [h1, false_and, if_false]
      exact hX.rest a j (by omega)
    · intro a j ha han hj
      set Z := (X.addRowOf i fun j => ∑ d ∈ Finset.range (B.nrows - (i + 1)), U.e i (i + 1 + d) * X.e (i + 1 + d) j).rescale i 0 (U.e i i)⁻¹ with hZ
      have hrow : ∀ k, k ≠ i → Z.e k j = X.e k j := by
        intro k hk
        rw [hZ]
        unfold Mat.rescale Mat.addRowOf
        simp only [hk, false_and, if_false]
      by_cases hai : a = i
      · subst hai
        rw [sum_Ico_first han, Finset.sum_congr rfl (fun k hk => by rw [hrow k (by have := Finset.mem_Ico.1 hk; omega)])]
        have he : Z.e a j = (U.e a a)⁻¹ * (X.e a j + ∑ k ∈ Finset.Ico (a + 1) B.nrows, U.e a k * X.e k j) := by
          rw [hZ, ← hsum]
          unfold Mat.rescale Mat.addRowOf
          simp [hn, hj]
        rw [he, ← mul_assoc, mul_inv_cancel₀ (hd a han), one_mul, hX.rest a j (by omega), add_assoc, elem_add_self, add_zero]
      · rw [Finset.sum_congr rfl (fun k hk => by rw [hrow k (by have := Finset.mem_Ico.1 hk; omega)])]
        exact hX.solved a j (by omega) han hj

/-! ### Newton-John -/

/-- combine rows with table entries -/
theorem combineLoop_pack {T : Njt} {Y XT : Mat ff} {r : Nat} (X : Mat ff) (hY : Y.ncols = X.ncols) (hT : T.T = XT.pack) (hTab : TableFor T Y r 0 XT)
    (f : Nat → Elem ff) (g : Nat → Nat) (hg : ∀ a b, g a = g b → a = b) :
    ∀ n, ∃ Z : Mat ff, forN (fun d B => mzedCombine B (g d) T.T (T.L (f d).1.toNat)) n X.pack = Z.pack ∧ SameMat Z X ∧
      (∀ d j, d < n → j < X.ncols → Z.e (g d) j = X.e (g d) j + f d * Y.e r j) ∧
      (∀ i j, (∀ d, d < n → g d ≠ i) ∨ X.ncols ≤ j → Z.e i j = X.e i j) := by
  intro n
  induction n with
  | zero => exact ⟨X, rfl, SameMat.refl X, fun d j h => absurd h (by omega), fun _ _ _ => rfl⟩
  | succ n ih =>
    obtain ⟨Z, h1, h2, h3, h4⟩ := ih
    refine ⟨Z.addRowOf (g n) (XT.e (T.L (f n).1.toNat)), ?_, ⟨h2.nrows, h2.ncols, h2.fid⟩, ?_, ?_⟩
    · show mzedCombine (forN _ n X.pack) (g n) T.T _ = _
      rw [h1, hT, combine_pack]
    · intro d j hd hj
      have hrow := hTab.row (f n) j (by unfold njLo; simp)
      rw [if_pos ⟨Nat.zero_le _, by rw [hY]; exact hj⟩] at hrow
      unfold Mat.addRowOf
      simp only
      by_cases hdn : d = n
      · subst hdn
        rw [if_pos ⟨rfl, by rw [h2.ncols]; exact hj⟩, hrow, h4 (g d) j (Or.inl (fun d' hd' he => by have := hg _ _ he; omega))]
      · rw [if_neg (fun h => hdn (hg _ _ h.1)), h3 d j (by omega) hj]
    · intro i j hij
      unfold Mat.addRowOf
      simp only
      rw [if_neg ?_]
      · exact h4 i j (hij.imp (fun h d hd => h d (by omega)) id)
      · rintro ⟨rfl, hj⟩
        rcases hij with h | h
        · exact h n (by omega) rfl
        · rw [h2.ncols] at hj; omega

/-- state of the Newton-John forward substitution: rows `< t` are solved, the others reduced -/
structure LowerNjInv (L B X : Mat ff) (t : Nat) : Prop where
  same : SameMat X B
  frame : Frame X B
  rest : ∀ i j, t ≤ i → i < B.nrows → j < B.ncols → X.e i j = B.e i j + ∑ k ∈ Finset.range t, L.e i k * X.e k j
  solved : ∀ i j, i < t → i < B.nrows → j < B.ncols → ∑ k ∈ Finset.range (i + 1), L.e i k * X.e k j = B.e i j

theorem trsmLowerNj_pack {cb : Codebook} (hcb : cb.Ok ff.degree) (L B : Mat ff) (hB : 0 < B.ncols) (hd : ∀ i, i < B.nrows → L.e i i ≠ 0) :
    ∃ X : Mat ff, mzedTrsmLowerLeftNewtonJohn cb L.pack B.pack = X.pack ∧ SameMat X B ∧ Frame X B ∧
      SolvesLower B.nrows B.ncols L.e X.e B.e := by
  unfold mzedTrsmLowerLeftNewtonJohn
  by_cases hdeg : 2 ^ L.pack.ff.degree ≥ L.pack.nrows
  · rw [if_pos hdeg]; exact trsmLowerNaive_pack L B hB hd
  rw [if_neg hdeg]
  have key := forN_inv (fun t (s : Mzed × Njt) => (∃ X : Mat ff, s.1 = X.pack ∧ LowerNjInv L B X t) ∧ ∃ XM XT, NjtOk ff B.ncols s.2 XM XT)
    (fun i (s : Mzed × Njt) =>
      let E := mzedRescaleRow s.1 i 0 (gf2eInv L.pack.ff (mzedReadElem L.pack i i))
      let T0 := mzedMakeTable cb s.2 E i 0
      (forN (fun d E => mzedCombine E (i + 1 + d) T0.T (T0.L (mzedReadElem L.pack (i + 1 + d) i).toNat)) (B.nrows - (i + 1)) E, T0))
    (B.pack, njtInit ff B.fid B.ncols) B.nrows
    ⟨⟨B, rfl, SameMat.refl B, fun _ _ _ => rfl, fun _ _ _ _ _ => by simp, fun _ _ h => absurd h (by omega)⟩, njtInit_ok _ _⟩ ?_
  · obtain ⟨⟨X, h1, h2⟩, -⟩ := key
    exact ⟨X, h1, h2.same, h2.frame, fun i j hi hj => h2.solved i j hi hi hj⟩
  · rintro i ⟨E, T⟩ hi ⟨⟨X, rfl, hX⟩, ⟨XM, XT, hT⟩⟩
    have hn := hX.same.ncols
    simp only [read_pack, pack_ff]
    rw [inv_pack, rescale_pack _ _ _ (by rw [hn]; exact hB)]
    obtain ⟨XM', XT', hT', hTab, -, -⟩ := mzedMakeTable_spec hcb (X.rescale i 0 (L.e i i)⁻¹) i 0 (T := T) (XM := XM) (XT := XT)
      (by show NjtOk ff X.ncols T XM XT; rw [hn]; exact hT) (by show 0 < X.ncols; rw [hn]; exact hB)
    obtain ⟨Z, h1, h2, h3, h4⟩ := combineLoop_pack (X.rescale i 0 (L.e i i)⁻¹) rfl hT'.Teq hTab (fun d => L.e (i + 1 + d) i) (fun d => i + 1 + d)
      (fun a b h => by omega) (B.nrows - (i + 1))
    refine ⟨⟨Z, h1, ?_⟩, XM', XT', by rw [← hn]; exact hT'⟩
    have hR : ∀ a j, (X.rescale i 0 (L.e i i)⁻¹).e a j = if a = i ∧ j < B.ncols then (L.e i i)⁻¹ * X.e i j else X.e a j := by
      intro a j
      unfold Mat.rescale
      simp only [Nat.zero_le, true_and, hn]
      split_ifs with h
      · rw [h.1]
      · rfl
    have hRn : (X.rescale i 0 (L.e i i)⁻¹).ncols = B.ncols := hn
    have hZlow : ∀ a j, a ≤ i → Z.e a j = (X.rescale i 0 (L.e i i)⁻¹).e a j := fun a j ha => h4 a j (Or.inl (fun d _ => by omega))
    have hZk : ∀ k j, k < i → Z.e k j = X.e k j := by
      intro k j hk
      rw [hZlow k j (by omega), hR, if_neg (by omega)]
    refine ⟨⟨h2.nrows.trans hX.same.nrows, h2.ncols.trans hX.same.ncols, h2.fid.trans hX.same.fid⟩, ?_, ?_, ?_⟩
    · intro a j haj
      rw [← hX.frame a j haj]
      have e1 : (X.rescale i 0 (L.e i i)⁻¹).e a j = X.e a j := by
        rw [hR, if_neg (fun h => haj ⟨by omega, h.2⟩)]
      rw [← e1]
      apply h4
      by_cases hj : j < B.ncols
      · left; intro d hd he; exact haj ⟨by omega, hj⟩
      · right; rw [hRn]; omega
    · intro a j ha han hj
      obtain ⟨d, rfl⟩ : ∃ d, a = i + 1 + d := ⟨a - (i + 1), by omega⟩
      rw [h3 d j (by omega) (by rw [hRn]; exact hj), hR, if_neg (by omega), hR, if_pos ⟨rfl, hj⟩, hX.rest _ j (by omega) han hj, Finset.sum_range_succ,
        hZlow i j le_rfl, hR, if_pos ⟨rfl, hj⟩, add_assoc]
      congr 2
      exact Finset.sum_congr rfl fun k hk => by rw [hZk k j (Finset.mem_range.1 hk)]
    · intro a j ha han hj
      by_cases hai : a = i
      · subst hai
        rw [Finset.sum_range_succ, Finset.sum_congr rfl (fun k hk => by rw [hZk k j (Finset.mem_range.1 hk)]), hZlow a j le_rfl, hR, if_pos ⟨rfl, hj⟩,
          ← mul_assoc, mul_inv_cancel₀ (hd a hi), one_mul, hX.rest a j le_rfl han hj, add_comm, add_assoc, elem_add_self, add_zero]
      · rw [Finset.sum_congr rfl (fun k hk => by rw [hZk k j (by have := Finset.mem_range.1 hk; omega)])]
        exact hX.solved a j (by omega) han hj

/-- state of the Newton-John backward substitution -/
structure UpperNjInv (U B X : Mat ff) (t : Nat) : Prop where
  same : SameMat X B
  frame : Frame X B
  rest : ∀ i j, i + t < B.nrows → j < B.ncols → X.e i j = B.e i j + ∑ k ∈ Finset.Ico (B.nrows - t) B.nrows, U.e i k * X.e k j
  solved : ∀ i j, B.nrows ≤ i + t → i < B.nrows → j < B.ncols → ∑ k ∈ Finset.Ico i B.nrows, U.e i k * X.e k j = B.e i j

theorem trsmUpperNj_pack {cb : Codebook} (hcb : cb.Ok ff.degree) (U B : Mat ff) (hB : 0 < B.ncols) (hd : ∀ i, i < B.nrows → U.e i i ≠ 0) :
    ∃ X : Mat ff, mzedTrsmUpperLeftNewtonJohn cb U.pack B.pack = X.pack ∧ SameMat X B ∧ Frame X B ∧
      SolvesUpper B.nrows B.ncols U.e X.e B.e := by
  unfold mzedTrsmUpperLeftNewtonJohn
  by_cases hdeg : 2 ^ U.pack.ff.degree ≥ U.pack.nrows
  · rw [if_pos hdeg]; exact trsmUpperNaive_pack U B hB hd
  rw [if_neg hdeg]
  have key := forN_inv (fun t (s : Mzed × Njt) => (∃ X : Mat ff, s.1 = X.pack ∧ UpperNjInv U B X t) ∧ ∃ XM XT, NjtOk ff B.ncols s.2 XM XT)
    (fun t (s : Mzed × Njt) =>
      let i := B.nrows - 1 - t
      let E := mzedRescaleRow s.1 i 0 (gf2eInv U.pack.ff (mzedReadElem U.pack i i))
      let T0 := mzedMakeTable cb s.2 E i 0
      (forN (fun j E => mzedCombine E j T0.T (T0.L (mzedReadElem U.pack j i).toNat)) i E, T0))
    (B.pack, njtInit ff B.fid B.ncols) B.nrows
    ⟨⟨B, rfl, SameMat.refl B, fun _ _ _ => rfl, fun _ _ _ _ => by simp, fun _ _ h h' => absurd h (by omega)⟩, njtInit_ok _ _⟩ ?_
  · obtain ⟨⟨X, h1, h2⟩, -⟩ := key
    exact ⟨X, h1, h2.same, h2.frame, fun i j hi hj => h2.solved i j (by omega) hi hj⟩
  · rintro t ⟨E, T⟩ ht ⟨⟨X, rfl, hX⟩, ⟨XM, XT, hT⟩⟩
    have hn := hX.same.ncols
    simp only [read_pack, pack_ff]
    obtain ⟨i, hi⟩ : ∃ i, B.nrows - 1 - t = i := ⟨_, rfl⟩
    rw [hi]
    rw [inv_pack, rescale_pack _ _ _ (by rw [hn]; exact hB)]
    obtain ⟨XM', XT', hT', hTab, -, -⟩ := mzedMakeTable_spec hcb (X.rescale i 0 (U.e i i)⁻¹) i 0 (T := T) (XM := XM) (XT := XT)
      (by show NjtOk ff X.ncols T XM XT; rw [hn]; exact hT) (by show 0 < X.ncols; rw [hn]; exact hB)
    obtain ⟨Z, h1, h2, h3, h4⟩ := combineLoop_pack (X.rescale i 0 (U.e i i)⁻¹) rfl hT'.Teq hTab (fun d => U.e d i) (fun d => d)
      (fun a b h => by omega) i
    refine ⟨⟨Z, h1, ?_⟩, XM', XT', by rw [← hn]; exact hT'⟩
    have hR : ∀ a j, (X.rescale i 0 (U.e i i)⁻¹).e a j = if a = i ∧ j < B.ncols then (U.e i i)⁻¹ * X.e i j else X.e a j := by
      intro a j
      unfold Mat.rescale
      simp only [Nat.zero_le, true_and, hn]
      split_ifs with h
      · rw [h.1]
      · rfl
    have hRn : (X.rescale i 0 (U.e i i)⁻¹).ncols = B.ncols := hn
    have hZlow : ∀ a j, i ≤ a → Z.e a j = (X.rescale i 0 (U.e i i)⁻¹).e a j := fun a j ha => h4 a j (Or.inl (fun d _ => by omega))
    have hZk : ∀ k j, i < k → Z.e k j = X.e k j := by
      intro k j hk
      rw [hZlow k j (by omega), hR, if_neg (by omega)]
    refine ⟨⟨h2.nrows.trans hX.same.nrows, h2.ncols.trans hX.same.ncols, h2.fid.trans hX.same.fid⟩, ?_, ?_, ?_⟩
    · intro a j haj
      rw [← hX.frame a j haj]
      have e1 : (X.rescale i 0 (U.e i i)⁻¹).e a j = X.e a j := by
        rw [hR, if_neg (fun h => haj ⟨by omega, h.2⟩)]
      rw [← e1]
      apply h4
      by_cases hj : j < B.ncols
      · left; intro d hd he; exact haj ⟨by omega, hj⟩
      · right; rw [hRn]; omega
    · intro a j ha hj
      have e2 : B.nrows - (t + 1) = i := by omega
      have e3 : B.nrows - t = i + 1 := by omega
      have hr := hX.rest a j (by omega) hj
      rw [e3] at hr
      rw [h3 a j (by omega) (by rw [hRn]; exact hj), hR, if_neg (by omega), hR, if_pos ⟨rfl, hj⟩, hr, e2, sum_Ico_first (i := i) (by omega),
        hZlow i j le_rfl, hR, if_pos ⟨rfl, hj⟩, add_assoc]
      congr 1
      rw [add_comm]
      congr 1
      exact Finset.sum_congr rfl fun k hk => by rw [hZk k j (by have := Finset.mem_Ico.1 hk; omega)]
    · intro a j ha han hj
      by_cases hai : a = i
      · subst hai
        have hr := hX.rest a j (by omega) hj
        rw [show B.nrows - t = a + 1 by omega] at hr
        rw [sum_Ico_first han, Finset.sum_congr rfl (fun k hk => by rw [hZk k j (by have := Finset.mem_Ico.1 hk; omega)]), hZlow a j le_rfl, hR, if_pos ⟨rfl, hj⟩,
          ← mul_assoc, mul_inv_cancel₀ (hd a han), one_mul, hr, add_assoc, elem_add_self, add_zero]
      · rw [Finset.sum_congr rfl (fun k hk => by rw [hZk k j (by have := Finset.mem_Ico.1 hk; omega)])]
        exact hX.solved a j (by omega) han hj

end M4rie
