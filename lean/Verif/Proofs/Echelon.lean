import Verif.Proofs.Pack
import Verif.Model.Echelon
import Mathlib.Algebra.CharP.Two

/-! Invariant of Gaussian elimination. -/

namespace M4rie.Spec

variable {K : Type*} [Field K]

/-- Columns `< c` are processed, `r` pivots (columns `piv 0 … piv (r-1)`) have been found. -/
structure EchInv (nr nc c r : Nat) (full : Prop) (M0 M : Nat → Nat → K) (piv : Nat → Nat) : Prop where
  span : rowSpan nr nc M = rowSpan nr nc M0
  le : r ≤ nr
  lt : ∀ i, i < r → piv i < c
  mono : ∀ i k, i < k → k < r → piv i < piv k
  one : ∀ i, i < r → M i (piv i) = 1
  left : ∀ i, i < r → ∀ j, j < piv i → M i j = 0
  below : ∀ i, r ≤ i → i < nr → ∀ j, j < c → M i j = 0
  above : full → ∀ i, i < r → ∀ k, k < nr → k ≠ i → M k (piv i) = 0
  frame : ∀ i j, nr ≤ i ∨ nc ≤ j → M i j = M0 i j

variable {nr nc c r : Nat} {full : Prop} {M0 M : Nat → Nat → K} {piv : Nat → Nat}

theorem EchInv.start : EchInv nr nc 0 0 full M M piv where
  span := rfl
  le := Nat.zero_le _
  lt := by intro i h; omega
  mono := by intro i k _ h; omega
  one := by intro i h; omega
  left := by intro i h; omega
  below := by intro i _ _ j h; omega
  above := by intro _ i h; omega
  frame := by intros; rfl

theorem EchInv.echelon (h : EchInv nr nc nc r full M0 M piv) : IsEchelon nr nc r M piv where
  le := h.le
  lt := h.lt
  mono := h.mono
  one := h.one
  left := h.left
  zero := h.below

theorem EchInv.rref (h : EchInv nr nc nc r full M0 M piv) (hf : full) : IsRref nr nc r M piv :=
  { h.echelon with above := h.above hf }

/-- no pivot in column `c` -/
theorem EchInv.skip (h : EchInv nr nc c r full M0 M piv) (hz : ∀ i, r ≤ i → i < nr → M i c = 0) :
    EchInv nr nc (c + 1) r full M0 M piv :=
  { h with
    lt := fun i hi => by have := h.lt i hi; omega
    below := fun i h1 h2 j hj => by
      by_cases hjc : j = c
      · subst hjc; exact hz i h1 h2
      · exact h.below i h1 h2 j (by omega) }

/-- pivot in row `p`, column `c`: rescale, swap to row `r`, clear column `c` in the other rows
(`elim i` tells which). -/
theorem EchInv.pivot [CharP K 2] (h : EchInv nr nc c r full M0 M piv) (hc : c < nc) {p : Nat} (hrp : r ≤ p) (hp : p < nr)
    (hx : M p c ≠ 0) (elim : Nat → Prop) [DecidablePred elim] (he : ∀ i, r < i → i < nr → elim i)
    (hfull : full → ∀ i, i < nr → elim i) (M' : Nat → Nat → K)
    (hM' : ∀ i j, M' i j = if i < nr ∧ j < nc then
      (if i = r then (M p c)⁻¹ * M p j
       else if elim i then M (Equiv.swap p r i) j + M (Equiv.swap p r i) c * ((M p c)⁻¹ * M p j)
       else M (Equiv.swap p r i) j) else M i j) :
    EchInv nr nc (c + 1) (r + 1) full M0 M' (fun i => if i = r then c else piv i) := by
  have hr : r < nr := by omega
  have hsw : ∀ i, i < r → Equiv.swap p r i = i := fun i hi => Equiv.swap_apply_of_ne_of_ne (by omega) (by omega)
  have hswge : ∀ i, r < i → i < nr → r ≤ Equiv.swap p r i ∧ Equiv.swap p r i < nr := by
    intro i h1 h2
    rw [Equiv.swap_apply_def]
    split_ifs <;> omega
  -- zero left of column c in rows r..
  have hz : ∀ j, j < c → M p j = 0 := fun j hj => h.below p hrp hp j hj
  have hM'row : ∀ i j, i < nr → j < c → M' i j = if i < r then M i j else 0 := by
    intro i j hi hj
    rw [hM', if_pos ⟨hi, by omega⟩]
    by_cases hir : i = r
    · subst hir; simp [hz j hj]
    · rw [if_neg hir]
      have e : M (Equiv.swap p r i) j = if i < r then M i j else 0 := by
        by_cases hlt : i < r
        · rw [if_pos hlt, hsw i hlt]
        · rw [if_neg hlt]
          obtain ⟨h1, h2⟩ := hswge i (by omega) hi
          exact h.below _ h1 h2 j hj
      split_ifs <;> simp_all
  refine ⟨?_, by omega, ?_, ?_, ?_, ?_, ?_, ?_, ?_⟩
  · -- row span
    rw [← h.span]
    let N : Nat → Nat → K := fun i j => M (Equiv.swap p r i) j
    have hN : rowSpan nr nc N = rowSpan nr nc M :=
      rowSpan_perm (Equiv.swap p r) (fun i => swap_lt hp hr) (fun i _ j _ => rfl)
    rw [← hN]
    apply rowSpan_addmul hr (M p c)⁻¹ (inv_ne_zero hx) (fun i => if elim i then M (Equiv.swap p r i) c * (M p c)⁻¹ else 0)
    intro i hi j hj
    rw [hM', if_pos ⟨hi, hj⟩]
    have : N r j = M p j := by simp [N]
    by_cases hir : i = r
    · rw [if_pos hir, if_pos hir, this]
    · rw [if_neg hir, if_neg hir, this]
      split_ifs
      · simp only [N]; ring
      · simp [N]
  · intro i hi
    split_ifs
    · omega
    · have := h.lt i (by omega); omega
  · intro i k hik hk
    rw [if_neg (by omega)]
    split_ifs
    · exact h.lt i (by omega)
    · exact h.mono i k hik (by omega)
  · intro i hi
    by_cases hir : i = r
    · rw [if_pos hir, hM', if_pos ⟨by omega, hc⟩, if_pos hir, inv_mul_cancel₀ hx]
    · rw [if_neg hir, hM'row i _ (by omega) (h.lt i (by omega)), if_pos (by omega), h.one i (by omega)]
  · intro i hi j hj
    by_cases hir : i = r
    · rw [if_pos hir] at hj
      rw [hM'row i j (by omega) hj, if_neg (by omega)]
    · rw [if_neg hir] at hj
      have := h.lt i (by omega)
      rw [hM'row i j (by omega) (by omega), if_pos (by omega), h.left i (by omega) j hj]
  · intro i hi1 hi2 j hj
    by_cases hjc : j = c
    · subst hjc
      rw [hM', if_pos ⟨hi2, hc⟩, if_neg (by omega), if_pos (he i (by omega) hi2), inv_mul_cancel₀ hx, mul_one]
      exact CharTwo.add_self_eq_zero _
    · rw [hM'row i j hi2 (by omega), if_neg (by omega)]
  · intro hf i hi k hk hki
    by_cases hir : i = r
    · rw [if_pos hir, hM', if_pos ⟨hk, hc⟩, if_neg (by omega), if_pos (hfull hf k hk), inv_mul_cancel₀ hx, mul_one]
      exact CharTwo.add_self_eq_zero _
    · rw [if_neg hir, hM'row k _ hk (h.lt i (by omega))]
      split_ifs
      · exact h.above hf i (by omega) k hk hki
      · rfl
  · intro i j hij
    rw [hM', if_neg (by omega)]
    exact h.frame i j hij

end M4rie.Spec

namespace M4rie
open M4rie.Spec
variable {ff : Gf2e} [IsField ff]

theorem val_ne_zero (x : Elem ff) : x.1 ≠ 0#64 ↔ x ≠ 0 :=
  not_congr ⟨fun h => Elem.ext' h, fun h => by rw [h]; rfl⟩

theorem val_eq_zero (x : Elem ff) : x.1 = 0#64 ↔ x = 0 :=
  ⟨fun h => Elem.ext' h, fun h => by rw [h]; rfl⟩

theorem findPivot_spec (X : Mat ff) (c : Nat) : ∀ n r,
    (findPivot X.pack c n r = none ∧ ∀ i, r ≤ i → i < r + n → X.e i c = 0) ∨
    ∃ p, findPivot X.pack c n r = some p ∧ r ≤ p ∧ p < r + n ∧ X.e p c ≠ 0 ∧ ∀ i, r ≤ i → i < p → X.e i c = 0 := by
  intro n
  induction n with
  | zero => intro r; left; exact ⟨rfl, fun i h1 h2 => by omega⟩
  | succ n ih =>
    intro r
    unfold findPivot
    rw [read_pack]
    by_cases h : X.e r c = 0
    · rw [if_neg (by rw [val_ne_zero]; exact fun h' => h' h)]
      rcases ih (r + 1) with ⟨h1, h2⟩ | ⟨p, h1, h2, h3, h4, h5⟩
      · left
        refine ⟨h1, fun i hi1 hi2 => ?_⟩
        by_cases hir : i = r
        · rw [hir]; exact h
        · exact h2 i (by omega) (by omega)
      · right
        refine ⟨p, h1, by omega, by omega, h4, fun i hi1 hi2 => ?_⟩
        by_cases hir : i = r
        · rw [hir]; exact h
        · exact h5 i (by omega) (by omega)
    · right
      rw [if_pos ((val_ne_zero _).2 h)]
      exact ⟨r, rfl, le_rfl, by omega, h, fun i h1 h2 => by omega⟩

/-- column `c` is cleared with row `p` in rows `lo ≤ i < nrows` -/
def Mat.elim (X : Mat ff) (p c lo : Nat) : Mat ff :=
  { X with e := fun i j => if lo ≤ i ∧ i < X.nrows ∧ i ≠ p ∧ c ≤ j ∧ j < X.ncols then X.e i j + X.e i c * X.e p j else X.e i j }

theorem elimRows_pack (X : Mat ff) (p c lo : Nat) (hc : c < X.ncols) :
    elimRows X.pack p c lo = (X.elim p c lo).pack := by
  unfold elimRows
  have := forN_inv (fun n (E : Mzed) => ∃ Y : Mat ff, E = Y.pack ∧ Y.nrows = X.nrows ∧ Y.ncols = X.ncols ∧ Y.fid = X.fid ∧
      ∀ i j, Y.e i j = if lo ≤ i ∧ i < lo + n ∧ i ≠ p ∧ c ≤ j ∧ j < X.ncols then X.e i j + X.e i c * X.e p j else X.e i j)
    (fun k A =>
      let i := lo + k
      if i = p then A
      else
        let x := mzedReadElem A i c
        if x = 0#64 then A else mzedAddMultipleOfRow A i A p x c) X.pack (X.nrows - lo)
    ⟨X, rfl, rfl, rfl, rfl, fun i j => by rw [if_neg (by omega)]⟩ (by
      rintro k E hk ⟨Y, rfl, h1, h2, h3, h4⟩
      dsimp only
      by_cases hip : lo + k = p
      · rw [if_pos hip]
        refine ⟨Y, rfl, h1, h2, h3, fun i j => ?_⟩
        rw [h4]
        apply if_congr _ rfl rfl
        constructor
        · rintro ⟨a, b, c⟩; exact ⟨a, by omega, c⟩
        · rintro ⟨a, b, c, d⟩; exact ⟨a, by omega, c, d⟩
      · rw [if_neg hip, read_pack]
        have hrow : Y.e (lo + k) c = X.e (lo + k) c := by rw [h4, if_neg (by omega)]
        have hprow : ∀ j, Y.e p j = X.e p j := fun j => by rw [h4, if_neg (by omega)]
        have key : ∀ i j, (if lo ≤ i ∧ i < lo + (k + 1) ∧ i ≠ p ∧ c ≤ j ∧ j < X.ncols then X.e i j + X.e i c * X.e p j else X.e i j) =
            (if i = lo + k ∧ c ≤ j ∧ j < X.ncols then Y.e i j + X.e (lo + k) c * X.e p j else Y.e i j) := by
          intro i j
          rw [h4]
          by_cases hik : i = lo + k
          · subst hik
            by_cases hj : c ≤ j ∧ j < X.ncols
            · rw [if_pos (by omega), if_pos (by omega), if_neg (by omega)]
            · rw [if_neg (by tauto), if_neg (by tauto), if_neg (by omega)]
          · rw [if_neg (c := i = lo + k ∧ c ≤ j ∧ j < X.ncols) (by omega)]
            apply if_congr _ rfl rfl
            constructor
            · rintro ⟨a, b, c⟩; exact ⟨a, by omega, c⟩
            · rintro ⟨a, b, c⟩; exact ⟨a, by omega, c⟩
        by_cases h0 : Y.e (lo + k) c = 0
        · rw [if_pos ((val_eq_zero _).2 h0)]
          refine ⟨Y, rfl, h1, h2, h3, fun i j => ?_⟩
          rw [key, ← hrow, h0, zero_mul, add_zero, ite_self]
        · rw [if_neg (fun h => h0 ((val_eq_zero _).1 h)), addMul_pack _ _ _ _ _ (by omega)]
          refine ⟨_, rfl, h1, h2, h3, fun i j => ?_⟩
          unfold Mat.addMul
          simp only
          rw [key, hrow, h2, hprow])
  obtain ⟨Y, hY, h1, h2, h3, h4⟩ := this
  have e : X.elim p c lo = Y := by
    unfold Mat.elim
    refine Mat.ext h1.symm h2.symm h3.symm ?_
    funext i j
    simp only
    rw [h4]
    apply if_congr _ rfl rfl
    constructor
    · rintro ⟨a, b, c⟩; exact ⟨a, by omega, c⟩
    · rintro ⟨a, b, c⟩; exact ⟨a, by omega, c⟩
  rw [e, ← hY]
  rfl

theorem echelonizeCol_inv (X0 : Mat ff) (full : Bool) (c : Nat) (hc : c < X0.ncols) (X : Mat ff) (r : Nat)
    (h1 : X.nrows = X0.nrows) (h2 : X.ncols = X0.ncols) (h3 : X.fid = X0.fid) (piv : Nat → Nat)
    (h : EchInv X0.nrows X0.ncols c r (full = true) X0.e X.e piv) :
    ∃ (X' : Mat ff) (r' : Nat) (piv' : Nat → Nat), echelonizeCol full c (X.pack, r) = (X'.pack, r') ∧
      X'.nrows = X0.nrows ∧ X'.ncols = X0.ncols ∧ X'.fid = X0.fid ∧
      EchInv X0.nrows X0.ncols (c + 1) r' (full = true) X0.e X'.e piv' := by
  unfold echelonizeCol
  simp only
  have hle := h.le
  rcases findPivot_spec X c (X.pack.nrows - r) r with ⟨e1, e2⟩ | ⟨p, e1, e2, e3, e4, _⟩
  · rw [e1]
    refine ⟨X, r, piv, rfl, h1, h2, h3, h.skip fun i hi1 hi2 => e2 i hi1 ?_⟩
    rw [pack_nrows, h1]; omega
  · rw [e1]
    simp only
    rw [pack_nrows, h1] at e3
    rw [read_pack, pack_ff, inv_pack, rescale_pack _ _ _ (by omega), swapRows_pack, elimRows_pack _ _ _ _ (by
      show c < X.ncols; omega)]
    refine ⟨_, _, _, rfl, h1, h2, h3, h.pivot hc e2 (by omega) e4 (fun i => (if full then 0 else r + 1) ≤ i) ?_ ?_ _ ?_⟩
    · intro i hi _
      split_ifs <;> omega
    · intro hf i _
      rw [if_pos hf]; omega
    · intro i j
      unfold Mat.elim Mat.swapRows Mat.rescale
      simp only
      rw [h1, h2]
      by_cases hij : i < X0.nrows ∧ j < X0.ncols
      · rw [if_pos hij]
        have hpj : ∀ j, j < X0.ncols → (if c ≤ j ∧ j < X0.ncols then (X.e p c)⁻¹ * X.e p j else X.e p j) = (X.e p c)⁻¹ * X.e p j := by
          intro j hj
          by_cases hcj : c ≤ j
          · rw [if_pos ⟨hcj, hj⟩]
          · rw [if_neg (by omega), h.below p e2 (by omega) j (by omega), mul_zero]
        simp only [hij.2, hc, if_true, and_true]
        by_cases hir : i = r
        · subst hir
          rw [if_pos rfl, if_neg (by tauto)]
          simp only [Equiv.swap_apply_right, true_and]
          have := hpj j hij.2
          simpa [hij.2] using this
        · rw [if_neg hir]
          have hne : Equiv.swap p r i ≠ p := by
            intro h'
            have := (Equiv.swap_apply_eq_iff).1 h'
            rw [Equiv.swap_apply_left] at this
            exact hir this
          simp only [hne, false_and, if_false, Equiv.swap_apply_right, true_and, hij.1]
          have := hpj j hij.2
          simp only [hij.2, and_true] at this
          rw [this]
          by_cases hel : (if full = true then 0 else r + 1) ≤ i
          · rw [if_pos hel]
            by_cases hcj : c ≤ j
            · rw [if_pos ⟨hel, hir, hcj⟩]
            · rw [if_neg (by tauto), h.below p e2 (by omega) j (by omega)]; simp
          · rw [if_neg hel, if_neg (by tauto)]
      · rw [if_neg hij, if_neg (by tauto)]
        by_cases hj : j < X0.ncols
        · rw [if_pos hj]
          have hi : ¬ i < X0.nrows := by tauto
          have : Equiv.swap p r i = i := Equiv.swap_apply_of_ne_of_ne (by omega) (by omega)
          rw [this, if_neg (by omega)]
        · rw [if_neg hj, if_neg (by omega)]

theorem echelonizeNaive_inv (X0 : Mat ff) (full : Bool) :
    ∃ (X : Mat ff) (r : Nat) (piv : Nat → Nat), mzedEchelonizeNaive X0.pack full = (X.pack, r) ∧
      X.nrows = X0.nrows ∧ X.ncols = X0.ncols ∧ X.fid = X0.fid ∧
      EchInv X0.nrows X0.ncols X0.ncols r (full = true) X0.e X.e piv := by
  unfold mzedEchelonizeNaive
  exact forN_inv (fun c s => ∃ (X : Mat ff) (r : Nat) (piv : Nat → Nat), s = (X.pack, r) ∧
      X.nrows = X0.nrows ∧ X.ncols = X0.ncols ∧ X.fid = X0.fid ∧
      EchInv X0.nrows X0.ncols c r (full = true) X0.e X.e piv) (echelonizeCol full) (X0.pack, 0) X0.pack.ncols
    ⟨X0, 0, fun _ => 0, rfl, rfl, rfl, rfl, EchInv.start⟩ (by
      rintro c s hc ⟨X, r, piv, rfl, h1, h2, h3, h⟩
      exact echelonizeCol_inv X0 full c hc X r h1 h2 h3 piv h)

end M4rie
