import Verif.Proofs.NjMul
import Verif.Proofs.EchBlock
import Verif.Model.NjEchelon

/-! Newton-John elimination. -/

namespace M4rie
open M4rie.Spec
variable {ff : Gf2e} [IsField ff]

theorem processRows_pack (X Y : Mat ff) {Ts : Nat → Njt} {XTs : Nat → Mat ff} (n a b sc : Nat) (rr tc : Nat → Nat)
    (hY : Y.ncols = X.ncols) (ht : ∀ q, q < n → (Ts q).T = (XTs q).pack)
    (hz : ∀ q, q < n → ∀ i j, X.ncols ≤ j → (XTs q).e i j = 0) (hT : ∀ q, q < n → TableFor (Ts q) Y (rr q) (tc q) (XTs q))
    (hsc : ∀ q, q < n → sc ≤ tc q) (hlo : ∀ q, q < n → tc q ≤ sc + 64 / degreeToW ff.degree) :
    ∃ Z : Mat ff, mzedProcessRows X.pack a b sc n Ts = Z.pack ∧ Z.nrows = X.nrows ∧ Z.ncols = X.ncols ∧ Z.fid = X.fid ∧
      ∀ i j, Z.e i j = if a ≤ i ∧ i < b ∧ j < X.ncols then
        X.e i j + ∑ q ∈ Finset.range n, (if tc q ≤ j then X.e i (sc + q) * Y.e (rr q) j else 0) else X.e i j := by
  have hL := (okW_ff (ff := ff)).lpos
  have key := forN_inv (fun m (E : Mzed) => ∃ Z : Mat ff, E = Z.pack ∧ Z.nrows = X.nrows ∧ Z.ncols = X.ncols ∧ Z.fid = X.fid ∧
      ∀ i j, Z.e i j = if a ≤ i ∧ i < a + m ∧ j < X.ncols then
        X.e i j + ∑ q ∈ Finset.range n, (if tc q ≤ j then X.e i (sc + q) * Y.e (rr q) j else 0) else X.e i j)
    (fun k M =>
      let r := a + k
      let x := fun q => (Ts q).L (mzedReadElem M r (sc + q)).toNat
      let block := sc * M.w / 64
      let row := fun b => if block ≤ b ∧ b < M.width then M.words r b ^^^ xorTables Ts x b n else M.words r b
      { M with words := setRow M.words r row }) X.pack (b - a)
    ⟨X, rfl, rfl, rfl, rfl, fun i j => by rw [if_neg (by omega)]⟩ (by
      rintro m E hm ⟨Z, rfl, z1, z2, z3, z4⟩
      have e := addTables_pack Z (a + m) ht (fun q => (Ts q).L (mzedReadElem Z.pack (a + m) (sc + q)).toNat)
        (fun b => sc * Z.pack.w / 64 ≤ b ∧ b < Z.pack.width)
      refine ⟨_, e, z1, z2, z3, fun i j => ?_⟩
      simp only
      have hrow : ∀ q, Z.e (a + m) (sc + q) = X.e (a + m) (sc + q) := fun q => by rw [z4, if_neg (by omega)]
      have hsum : sc / (64 / degreeToW ff.degree) ≤ j / (64 / degreeToW ff.degree) → j < X.ncols →
          ∑ q ∈ Finset.range n, (XTs q).e ((Ts q).L (mzedReadElem Z.pack (a + m) (sc + q)).toNat) j
          = ∑ q ∈ Finset.range n, (if tc q ≤ j then X.e (a + m) (sc + q) * Y.e (rr q) j else 0) := by
        intro hb hj
        apply Finset.sum_congr rfl
        intro q hq
        rw [Finset.mem_range] at hq
        have hle : njLo ff (tc q) ≤ j := by
          have h1 : tc q / (64 / degreeToW ff.degree) ≤ sc / (64 / degreeToW ff.degree) + 1 := by
            rw [← Nat.add_div_right _ hL]
            exact Nat.div_le_div_right (hlo q hq)
          unfold njLo
          calc _ ≤ (64 / degreeToW ff.degree) * (sc / (64 / degreeToW ff.degree)) := Nat.mul_le_mul_left _ (Nat.sub_le_iff_le_add.2 h1)
            _ ≤ (64 / degreeToW ff.degree) * (j / (64 / degreeToW ff.degree)) := Nat.mul_le_mul_left _ hb
            _ ≤ j := Nat.mul_div_le _ _
        rw [read_pack, (hT q hq).row _ _ hle, hrow, hY]
        simp [hj]
      have hsum0 : j < sc → ∑ q ∈ Finset.range n, (if tc q ≤ j then X.e (a + m) (sc + q) * Y.e (rr q) j else 0) = 0 := by
        intro hj
        apply Finset.sum_eq_zero
        intro q hq
        rw [Finset.mem_range] at hq
        have := hsc q hq
        rw [if_neg (by omega)]
      have hwid : j < X.ncols → j / (64 / degreeToW ff.degree) < Z.pack.width := by
        intro hj
        unfold Mzed.width Mzed.bitCols
        rw [pack_w, pack_ncols, z2, (okW_ff (ff := ff)).width]
        exact start_lt_width okW_ff _ _ hj
      have hblk : sc * Z.pack.w / 64 = sc / (64 / degreeToW ff.degree) := by
        rw [pack_w, Nat.mul_comm, (okW_ff (ff := ff)).block]
      rw [hblk]
      by_cases hi : i = a + m
      · subst hi
        have hZ : Z.e (a + m) j = X.e (a + m) j := by rw [z4, if_neg (by omega)]
        by_cases hj : j < X.ncols
        · rw [if_pos (c := a ≤ a + m ∧ a + m < a + (m + 1) ∧ j < X.ncols) (by omega)]
          by_cases hb : sc / (64 / degreeToW ff.degree) ≤ j / (64 / degreeToW ff.degree)
          · rw [if_pos ⟨rfl, hb, hwid hj⟩, hsum hb hj, hZ]
          · have hjs : j < sc := by
              by_contra h
              exact hb (Nat.div_le_div_right (by omega))
            rw [if_neg (by tauto), hsum0 hjs, add_zero, hZ]
        · rw [if_neg (c := a ≤ a + m ∧ a + m < a + (m + 1) ∧ j < X.ncols) (by omega), ← hZ]
          split_ifs
          · have : ∑ q ∈ Finset.range n, (XTs q).e ((Ts q).L (mzedReadElem Z.pack (a + m) (sc + q)).toNat) j = 0 := by
              apply Finset.sum_eq_zero
              intro q hq
              rw [Finset.mem_range] at hq
              exact hz q hq _ _ (by omega)
            rw [this, add_zero]
          · rfl
      · rw [if_neg (by tauto), z4]
        apply if_congr _ rfl rfl
        omega)
  obtain ⟨Z, e, z1, z2, z3, z4⟩ := key
  refine ⟨Z, e, z1, z2, z3, fun i j => ?_⟩
  rw [z4]
  apply if_congr _ rfl rfl
  omega

/-! ### the Gauss block -/

theorem gaussClear_pack (X : Mat ff) (i r c t : Nat) {full : Prop} {M0 : Nat → Nat → Elem ff} {piv : Nat → Nat} {nr : Nat}
    (h : GInv nr X.ncols c r t full M0 X.e piv) (hc : c + t ≤ X.ncols) (hi : r + t ≤ i) :
    gaussClear X.pack i r c t = Mat.pack { X with e := fun a j => if a = i ∧ j < X.ncols then X.e a j + ∑ q ∈ Finset.range t, X.e a (c + q) * X.e (r + q) j else X.e a j } := by
  have hle := h.le
  have key : ∀ m, m ≤ t → ∃ Y : Mat ff, forN (fun l A =>
    let tmp := mzedReadElem A i (c + l)
    if tmp = 0#64 then A else mzedAddMultipleOfRow A i A (r + l) tmp (c + l)) m X.pack = Y.pack ∧
      Y.nrows = X.nrows ∧ Y.ncols = X.ncols ∧ Y.fid = X.fid ∧
      ∀ a j, Y.e a j = if a = i ∧ j < X.ncols then X.e a j + ∑ q ∈ Finset.range m, X.e a (c + q) * X.e (r + q) j else X.e a j := by
    intro m
    induction m with
    | zero => intro _; exact ⟨X, rfl, rfl, rfl, rfl, fun a j => by simp⟩
    | succ m ih =>
      intro hm
      obtain ⟨Y, e, y1, y2, y3, y4⟩ := ih (by omega)
      rw [forN, e]
      simp only [read_pack]
      have hread : Y.e i (c + m) = X.e i (c + m) := by
        rw [y4, if_pos ⟨rfl, by omega⟩]
        have : ∑ q ∈ Finset.range m, X.e i (c + q) * X.e (r + q) (c + m) = 0 := by
          apply Finset.sum_eq_zero
          intro q hq
          rw [Finset.mem_range] at hq
          rw [h.ident q m (by omega) (by omega), if_neg (by omega), mul_zero]
        rw [this, add_zero]
      have hYr : ∀ j, Y.e (r + m) j = X.e (r + m) j := fun j => by rw [y4, if_neg (by omega)]
      have hleft : ∀ j, j < c + m → X.e (r + m) j = 0 := by
        intro j hj
        by_cases h1 : j < c
        · exact h.below _ (by omega) (by omega) j h1
        · have := h.ident m (j - c) (by omega) (by omega)
          rw [if_neg (by omega), Nat.add_sub_cancel' (by omega)] at this
          exact this
      by_cases h0 : Y.e i (c + m) = 0
      · rw [if_pos ((val_eq_zero _).2 h0)]
        refine ⟨Y, rfl, y1, y2, y3, fun a j => ?_⟩
        rw [y4, Finset.sum_range_succ]
        by_cases haj : a = i ∧ j < X.ncols
        · rw [if_pos haj, if_pos haj, haj.1, ← hread, h0, zero_mul, add_zero]
        · rw [if_neg haj, if_neg haj]
      · rw [if_neg (fun h' => h0 ((val_eq_zero _).1 h')), addMul_pack _ _ _ _ _ (by omega)]
        refine ⟨_, rfl, y1, y2, y3, fun a j => ?_⟩
        unfold Mat.addMul
        simp only [y2]
        rw [y4, Finset.sum_range_succ, hread, hYr]
        by_cases haj : a = i ∧ j < X.ncols
        · rw [if_pos haj, if_pos haj]
          by_cases hcj : c + m ≤ j
          · rw [if_pos ⟨haj.1, hcj, haj.2⟩, haj.1, add_assoc]
          · rw [if_neg (by omega), hleft j (by omega), mul_zero, add_zero]
        · rw [if_neg haj, if_neg haj, if_neg (by tauto)]
  obtain ⟨Y, e, y1, y2, y3, y4⟩ := key t le_rfl
  unfold gaussClear
  rw [e]
  congr 1
  refine Mat.ext y1 y2 y3 ?_
  funext a j
  exact y4 a j

theorem gaussAbove_pack (X : Mat ff) (r n s j0 : Nat) (hj : j0 < X.ncols) (hs : r + n ≤ s) :
    gaussAbove X.pack r n s j0 = Mat.pack { X with e := fun a j => if (r ≤ a ∧ a < r + n) ∧ j0 ≤ j ∧ j < X.ncols then X.e a j + X.e a j0 * X.e s j else X.e a j } := by
  have key := forN_inv (fun m (E : Mzed) => ∃ Y : Mat ff, E = Y.pack ∧
      Y.nrows = X.nrows ∧ Y.ncols = X.ncols ∧ Y.fid = X.fid ∧
      ∀ a j, Y.e a j = if (r ≤ a ∧ a < r + m) ∧ j0 ≤ j ∧ j < X.ncols then X.e a j + X.e a j0 * X.e s j else X.e a j)
    (fun l A =>
      let tmp := mzedReadElem A (r + l) j0
      if tmp = 0#64 then A else mzedAddMultipleOfRow A (r + l) A s tmp j0) X.pack n
    ⟨X, rfl, rfl, rfl, rfl, fun a j => by rw [if_neg (by omega)]⟩ (by
      rintro m E hm ⟨Y, rfl, y1, y2, y3, y4⟩
      simp only [read_pack]
      have hread : Y.e (r + m) j0 = X.e (r + m) j0 := by rw [y4, if_neg (by omega)]
      have hYs : ∀ j, Y.e s j = X.e s j := fun j => by rw [y4, if_neg (by omega)]
      by_cases h0 : Y.e (r + m) j0 = 0
      · rw [if_pos ((val_eq_zero _).2 h0)]
        refine ⟨Y, rfl, y1, y2, y3, fun a j => ?_⟩
        rw [y4]
        by_cases ha : a = r + m
        · subst ha
          rw [if_neg (by omega)]
          split_ifs
          · rw [← hread, h0, zero_mul, add_zero]
          · rfl
        · apply if_congr _ rfl rfl; omega
      · rw [if_neg (fun h' => h0 ((val_eq_zero _).1 h')), addMul_pack _ _ _ _ _ (by omega)]
        refine ⟨_, rfl, y1, y2, y3, fun a j => ?_⟩
        unfold Mat.addMul
        simp only [y2]
        rw [y4, hread, hYs]
        by_cases ha : a = r + m
        · subst ha
          by_cases hjj : j0 ≤ j ∧ j < X.ncols
          · rw [if_pos ⟨rfl, hjj⟩, if_neg (by omega), if_pos (by omega)]
          · rw [if_neg (by tauto), if_neg (by omega), if_neg (by omega)]
        · rw [if_neg (c := a = r + m ∧ _) (by tauto)]
          apply if_congr _ rfl rfl; omega)
  obtain ⟨Y, e, y1, y2, y3, y4⟩ := key
  unfold gaussAbove
  rw [e]
  congr 1
  refine Mat.ext y1 y2 y3 ?_
  funext a j
  exact y4 a j

/-- dims of `X` are those of `X0` -/
structure SameMat (X X0 : Mat ff) : Prop where
  nrows : X.nrows = X0.nrows
  ncols : X.ncols = X0.ncols
  fid : X.fid = X0.fid

theorem SameMat.refl (X : Mat ff) : SameMat X X := ⟨rfl, rfl, rfl⟩
theorem SameMat.trans {X Y Z : Mat ff} (h : SameMat X Y) (h' : SameMat Y Z) : SameMat X Z :=
  ⟨h.1.trans h'.1, h.2.trans h'.2, h.3.trans h'.3⟩

theorem gaussRow_spec (X0 : Mat ff) (r c t : Nat) {full : Prop} {piv : Nat → Nat} (hc : c + t < X0.ncols) :
    ∀ n i (X : Mat ff), SameMat X X0 → GInv X0.nrows X0.ncols c r t full X0.e X.e piv → r + t ≤ i → i + n = X0.nrows →
      (∀ a, r + t ≤ a → a < i → ∀ q, q ≤ t → X.e a (c + q) = 0) →
      ∃ (X' : Mat ff) (b : Bool), gaussRow r c t n i X.pack = (X'.pack, b) ∧ SameMat X' X0 ∧
        (b = true → GInv X0.nrows X0.ncols c r (t + 1) full X0.e X'.e piv) ∧
        (b = false → GInv X0.nrows X0.ncols c r t full X0.e X'.e piv ∧
          ∀ a, r + t ≤ a → a < X0.nrows → ∀ q, q ≤ t → X'.e a (c + q) = 0) := by
  intro n
  induction n with
  | zero =>
    intro i X hX h hi hin hz
    exact ⟨X, false, rfl, hX, by simp, fun _ => ⟨h, fun a h1 h2 => hz a h1 (by omega)⟩⟩
  | succ n ih =>
    intro i X hX h hi hin hz
    unfold gaussRow
    have h' := h
    rw [← hX.ncols] at h'
    simp only
    rw [gaussClear_pack X i r c t h' (by rw [hX.ncols]; omega) hi]
    set X1 : Mat ff := { X with e := fun a j => if a = i ∧ j < X.ncols then X.e a j + ∑ q ∈ Finset.range t, X.e a (c + q) * X.e (r + q) j else X.e a j } with hX1
    have hX1e : ∀ a j, X1.e a j = if a = i ∧ j < X0.ncols then X.e a j + ∑ q ∈ Finset.range t, X.e a (c + q) * X.e (r + q) j else X.e a j := by
      intro a j; rw [hX1]; simp only; rw [hX.ncols]
    have hX1d : SameMat X1 X0 := ⟨hX.1, hX.2, hX.3⟩
    clear_value X1
    obtain ⟨g1, g2⟩ := h.clearRow (by omega) hi (by omega) X1.e hX1e
    rw [read_pack]
    by_cases h0 : X1.e i (c + t) = 0
    · rw [if_pos ((val_eq_zero _).2 h0)]
      apply ih (i + 1) X1 hX1d g1 (by omega) (by omega)
      intro a ha1 ha2 q hq
      by_cases hai : a = i
      · subst hai
        by_cases hqt : q = t
        · rw [hqt]; exact h0
        · exact g2 q (by omega)
      · rw [hX1e, if_neg (by tauto)]; exact hz a ha1 (by omega) q hq
    · rw [if_neg (fun h' => h0 ((val_eq_zero _).1 h')), pack_ff, inv_pack, rescale_pack _ _ _ (by rw [hX1d.ncols]; omega), swapRows_pack,
        gaussAbove_pack _ _ _ _ _ (by show _ < X1.ncols; rw [hX1d.ncols]; omega) le_rfl]
      refine ⟨_, true, rfl, ⟨hX1d.1, hX1d.2, hX1d.3⟩, fun _ => ?_, by simp⟩
      refine g1.pivot hc hi (by omega) g2 h0 _ ?_
      intro a j
      have hle := g1.le
      unfold Mat.swapRows Mat.rescale
      simp only [hX1d.ncols]
      have hpz : ∀ j, j < c + t → X1.e i j = 0 := by
        intro j hj
        by_cases h1 : j < c
        · exact g1.below i (by omega) (by omega) j h1
        · have := g2 (j - c) (by omega)
          rwa [Nat.add_sub_cancel' (by omega)] at this
      have hscaled : ∀ j, j < X0.ncols → (if c + t ≤ j ∧ j < X0.ncols then (X1.e i (c + t))⁻¹ * X1.e i j else X1.e i j) = (X1.e i (c + t))⁻¹ * X1.e i j := by
        intro j hj
        by_cases hcj : c + t ≤ j
        · rw [if_pos ⟨hcj, hj⟩]
        · rw [if_neg (by omega), hpz j (by omega), mul_zero]
      by_cases haj : a < X0.nrows ∧ j < X0.ncols
      · rw [if_pos haj]
        have hsc := hscaled j haj.2
        simp only [haj.2, and_true] at hsc
        simp only [haj.2, if_true, and_true, hc, Equiv.swap_apply_right, true_and]
        by_cases h1 : a = r + t
        · subst h1
          rw [if_pos rfl, if_neg (by omega)]
          simp only [Equiv.swap_apply_right, true_and]
          exact hsc
        · rw [if_neg h1]
          have hne : Equiv.swap i (r + t) a ≠ i := by
            intro h'
            have := (Equiv.swap_apply_eq_iff).1 h'
            rw [Equiv.swap_apply_left] at this
            exact h1 this
          simp only [hne, false_and, if_false]
          rw [hsc]
          by_cases h2 : r ≤ a ∧ a < r + t
          · have hsw : Equiv.swap i (r + t) a = a := Equiv.swap_apply_of_ne_of_ne (by omega) (by omega)
            rw [if_pos h2, hsw]
            by_cases hcj : c + t ≤ j
            · rw [if_pos ⟨h2, hcj⟩]
            · rw [if_neg (by tauto), hpz j (by omega)]; simp
          · rw [if_neg (by tauto), if_neg h2]
      · rw [if_neg haj]
        by_cases hj : j < X0.ncols
        · have ha : ¬ a < X0.nrows := by tauto
          have hsw : Equiv.swap i (r + t) a = a := Equiv.swap_apply_of_ne_of_ne (by omega) (by omega)
          simp only [hj, if_true, and_true]
          rw [if_neg (by omega), hsw, if_neg (by omega)]
        · rw [if_neg (by omega), if_neg hj, if_neg (by omega)]

theorem gaussCols_spec (X0 : Mat ff) (r c : Nat) {full : Prop} {piv : Nat → Nat} :
    ∀ k t (X : Mat ff), SameMat X X0 → GInv X0.nrows X0.ncols c r t full X0.e X.e piv → c + t + k ≤ X0.ncols →
      ∃ (X' : Mat ff) (t' : Nat), gaussCols r c X0.nrows k t X.pack = (X'.pack, t') ∧ SameMat X' X0 ∧ t' ≤ t + k ∧
        GInv X0.nrows X0.ncols c r t' full X0.e X'.e piv ∧
        (t' < t + k → ∀ a, r + t' ≤ a → a < X0.nrows → ∀ q, q ≤ t' → X'.e a (c + q) = 0) := by
  intro k
  induction k with
  | zero =>
    intro t X hX h hc
    exact ⟨X, t, rfl, hX, by omega, h, fun h => by omega⟩
  | succ k ih =>
    intro t X hX h hc
    unfold gaussCols
    have hle := h.le
    obtain ⟨X', b, e, g1, g2, g3⟩ := gaussRow_spec X0 r c t (by omega) (X0.nrows - (r + t)) (r + t) X hX h le_rfl (by omega)
      (fun a h1 h2 => by omega)
    simp only
    rw [e]
    cases b with
    | true =>
      simp only [if_true]
      obtain ⟨X2, t2, e2, a1, a2, a3, a4⟩ := ih (t + 1) X' g1 (g2 rfl) (by omega)
      exact ⟨X2, t2, e2, a1, by omega, a3, fun h => a4 (by omega)⟩
    | false =>
      obtain ⟨b1, b2⟩ := g3 rfl
      exact ⟨X', t, rfl, g1, by omega, b1, fun _ => b2⟩

/-! ### the main loop -/

theorem njEchLoop_spec {cb : Codebook} (hcb : cb.Ok ff.degree) (X0 : Mat ff) (full : Bool) :
    ∀ fuel (X : Mat ff) (Ts : Nat → Njt) r c kk (piv : Nat → Nat), SameMat X X0 → TabsOk ff X0.ncols Ts →
      EchInv X0.nrows X0.ncols c r (full = true) X0.e X.e piv → X0.ncols ≤ c + fuel → c ≤ X0.ncols → kk ≤ 6 → kk ≤ 64 / degreeToW ff.degree →
      (c < X0.ncols → 1 ≤ kk) →
      ∃ (X' : Mat ff) (r' : Nat) (piv' : Nat → Nat), njEchLoop cb full fuel X.pack Ts r c kk = (X'.pack, r') ∧ SameMat X' X0 ∧
        EchInv X0.nrows X0.ncols X0.ncols r' (full = true) X0.e X'.e piv' := by
  intro fuel
  induction fuel with
  | zero =>
    intro X Ts r c kk piv hX hT h hf hc _ _ _
    have : c = X0.ncols := by omega
    subst this
    exact ⟨X, r, piv, rfl, hX, h⟩
  | succ fuel ih =>
    intro X Ts r c kk piv hX hT h hf hc hk6 hkL hk1
    unfold njEchLoop
    rw [pack_ncols, hX.ncols]
    by_cases hlt : c < X0.ncols
    · rw [if_pos hlt]
      have hk1' := hk1 hlt
      simp only
      set kk' := if c + kk > X0.ncols then X0.ncols - c else kk with hkk'
      have hkk1 : 1 ≤ kk' ∧ kk' ≤ kk ∧ c + kk' ≤ X0.ncols := by
        rw [hkk']; split_ifs <;> omega
      clear_value kk'
      unfold mzedGaussSubmatrixFull
      rw [pack_nrows, hX.nrows]
      obtain ⟨X1, t, e, s1, ht, g, hfail⟩ := gaussCols_spec X0 r c kk' 0 X hX h.toG (by omega)
      rw [e]
      simp only
      have hrt := g.le
      by_cases ht0 : 1 ≤ t ∧ t ≤ 6
      · rw [if_pos ht0]
        have hT' : TabsOk ff X1.ncols Ts := by rw [s1.ncols]; exact hT
        obtain ⟨T1, XTs, T2⟩ := makeTables_spec hcb X1 r c 1 t hT' (fun q hq => by rw [s1.ncols]; omega)
        rw [s1.ncols] at T1
        set Ts' := makeTables cb X1.pack r c 1 t Ts with hTs'
        clear_value Ts'
        have hProc : ∀ (Z : Mat ff) (a b : Nat), SameMat Z X0 → ∃ Z' : Mat ff, mzedProcessRows Z.pack a b c t Ts' = Z'.pack ∧ SameMat Z' X0 ∧
            ∀ i j, Z'.e i j = if a ≤ i ∧ i < b ∧ j < X0.ncols then
              Z.e i j + ∑ q ∈ Finset.range t, Z.e i (c + q) * X1.e (r + q) j else Z.e i j := by
          intro Z a b hZ
          obtain ⟨Z', e', p1, p2, p3, p4⟩ := processRows_pack Z X1 t a b c (fun q => r + q) (fun q => c + 1 * q)
            (by rw [s1.ncols, hZ.ncols]) (fun q hq => (T2 q hq).1)
            (fun q hq i j hj => (T2 q hq).2.1 i j (by rw [s1.ncols]; rw [hZ.ncols] at hj; exact hj))
            (fun q hq => (T2 q hq).2.2) (fun q hq => by omega) (fun q hq => by omega)
          refine ⟨Z', e', ⟨p1.trans hZ.1, p2.trans hZ.2, p3.trans hZ.3⟩, fun i j => ?_⟩
          rw [p4, hZ.ncols]
          by_cases hc : a ≤ i ∧ i < b ∧ j < X0.ncols
          · rw [if_pos hc, if_pos hc]
            congr 1
            apply Finset.sum_congr rfl
            intro q hq
            rw [Finset.mem_range] at hq
            by_cases hqj : c + 1 * q ≤ j
            · rw [if_pos hqj]
            · rw [if_neg hqj]
              have : X1.e (r + q) j = 0 := by
                by_cases hjc : j < c
                · exact g.below _ (by omega) (by omega) j hjc
                · have := g.ident q (j - c) hq (by omega)
                  rw [if_neg (by omega), Nat.add_sub_cancel' (by omega)] at this
                  exact this
              rw [this, mul_zero]
          · rw [if_neg hc, if_neg hc]
        -- rows below
        obtain ⟨X2, e2, s2, v2⟩ : ∃ X2 : Mat ff, (if t = kk' then mzedProcessRows X1.pack (r + t) X1.pack.nrows c t Ts' else X1.pack) = X2.pack ∧ SameMat X2 X0 ∧
            ∀ i j, X2.e i j = if t = kk' ∧ r + t ≤ i ∧ i < X0.nrows ∧ j < X0.ncols then
              X1.e i j + ∑ q ∈ Finset.range t, X1.e i (c + q) * X1.e (r + q) j else X1.e i j := by
          by_cases htk : t = kk'
          · rw [if_pos htk, pack_nrows, s1.nrows]
            obtain ⟨Z, z1, z2, z3⟩ := hProc X1 (r + t) X0.nrows s1
            refine ⟨Z, z1, z2, fun i j => ?_⟩
            rw [z3]; apply if_congr _ rfl rfl; tauto
          · rw [if_neg htk]
            exact ⟨X1, rfl, s1, fun i j => by rw [if_neg (by tauto)]⟩
        rw [e2]
        obtain ⟨X3, e3, s3, v3⟩ : ∃ X3 : Mat ff, (if full = true then mzedProcessRows X2.pack 0 r c t Ts' else X2.pack) = X3.pack ∧ SameMat X3 X0 ∧
            ∀ i j, X3.e i j = if full = true ∧ i < r ∧ j < X0.ncols then
              X2.e i j + ∑ q ∈ Finset.range t, X2.e i (c + q) * X1.e (r + q) j else X2.e i j := by
          by_cases hfu : full = true
          · rw [if_pos hfu]
            obtain ⟨Z, z1, z2, z3⟩ := hProc X2 0 r s2
            refine ⟨Z, z1, z2, fun i j => ?_⟩
            rw [z3]; apply if_congr _ rfl rfl
            constructor
            · rintro ⟨_, h⟩; exact ⟨hfu, h⟩
            · rintro ⟨_, h⟩; exact ⟨Nat.zero_le _, h⟩
          · rw [if_neg hfu]
            exact ⟨X2, rfl, s2, fun i j => by rw [if_neg (by tauto)]⟩
        rw [e3]
        have fin := g.finish (by omega) (fun i => (t = kk' ∧ r + t ≤ i) ∨ (full = true ∧ i < r)) (by
            intro i hi1 hi2
            by_cases htk : t = kk'
            · exact Or.inl (Or.inl ⟨htk, hi1⟩)
            · exact Or.inr fun q hq => hfail (by omega) i hi1 hi2 q (by omega))
          (fun hfu i hi => Or.inr ⟨hfu, hi⟩) X3.e (by
            intro i j
            have hX2low : ∀ j, i < r + t → X2.e i j = X1.e i j := fun j hi => by rw [v2, if_neg (by omega)]
            rw [v3]
            by_cases hi : i < r
            · simp only [hX2low _ (by omega)]
              apply if_congr _ rfl rfl
              constructor
              · rintro ⟨h1, h2, h3⟩; exact ⟨by omega, h3, Or.inr ⟨h1, h2⟩, by omega⟩
              · rintro ⟨h1, h2, h3 | h3, h4⟩
                · omega
                · exact ⟨h3.1, h3.2, h2⟩
            · rw [if_neg (by tauto), v2]
              apply if_congr _ rfl rfl
              constructor
              · rintro ⟨h1, h2, h3, h4⟩; exact ⟨h3, h4, Or.inl ⟨h1, h2⟩, by omega⟩
              · rintro ⟨h1, h2, h3 | h3, h4⟩
                · exact ⟨h3.1, h3.2, h1, h2⟩
                · omega)
        exact ih X3 Ts' (r + t) (c + t) kk' _ s3 T1 fin (by omega) (by omega) (by omega) (by omega) (fun _ => by omega)
      · rw [if_neg ht0]
        have ht00 : t = 0 := by omega
        subst ht00
        have sk := g.toEch.skip (fun i h1 h2 => hfail (by omega) i (by omega) h2 0 le_rfl)
        exact ih X1 Ts (r + 0) (c + 1 + 0) kk' _ s1 hT sk (by omega) (by omega) (by omega) (by omega) (fun _ => by omega)
    · rw [if_neg hlt]
      have : c = X0.ncols := by omega
      subst this
      exact ⟨X, r, piv, rfl, hX, h⟩

theorem njKK_bounds (degree optK : Nat) (small : Bool) (h2 : 2 ≤ degree) (h16 : degree ≤ 16) :
    1 ≤ njKK degree optK small ∧ njKK degree optK small ≤ 6 ∧ njKK degree optK small * degreeToW degree ≤ 64 := by
  have hk : ∃ kk, kk ≤ 7 ∧ njKK degree optK small = (if 6 * kk / degree = 0 then 1 else if 6 * kk / degree > 6 then 6 else 6 * kk / degree) := by
    refine ⟨if small then min optK 7 - 1 else min optK 7, ?_, rfl⟩
    split_ifs <;> omega
  obtain ⟨kk, h7, hk⟩ := hk
  rw [hk]
  interval_cases degree <;> interval_cases kk <;> decide

theorem echelonizeNj_inv {cb : Codebook} (hcb : cb.Ok ff.degree) (optK : Nat) (small : Bool) (X0 : Mat ff) (full : Bool) :
    ∃ (X : Mat ff) (r : Nat) (piv : Nat → Nat), mzedEchelonizeNewtonJohn cb optK small X0.pack full = (X.pack, r) ∧ SameMat X X0 ∧
      EchInv X0.nrows X0.ncols X0.ncols r (full = true) X0.e X.e piv := by
  unfold mzedEchelonizeNewtonJohn
  obtain ⟨b1, b2, b3⟩ := njKK_bounds ff.degree optK small (IsField.two_le (ff := ff)) (Fact.out : FFOK ff).min.e16
  refine njEchLoop_spec hcb X0 full X0.ncols X0 _ 0 0 _ (fun _ => 0) (SameMat.refl X0) (fun _ => njtInit_ok _ _) EchInv.start (by omega) (by omega)
    b2 ?_ (fun _ => b1)
  rw [Nat.le_div_iff_mul_le okW_ff.pos]
  exact b3

end M4rie
