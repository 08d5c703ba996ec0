import Verif.Proofs.Ops

/-!
# Matrices for which the Newton-John elimination multiplies a cubic number of times
-/

namespace M4rie
open M4rie.Spec

variable {ff : Gf2e} [IsField ff]

/-- the computation returns `v` after at least `a` products -/
def AtLeast {α : Type} (x : Counted α) (v : α) (a : Nat) : Prop := x.val = v ∧ a ≤ x.muls

theorem atLeast_bind {α β : Type} {x : Counted α} {f : α → Counted β} {v : α} {w : β} {a b : Nat} (h : AtLeast x v a) (h' : AtLeast (f v) w b) :
    AtLeast (x >>= f) w (a + b) := by
  obtain ⟨rfl, h2⟩ := h
  exact ⟨h'.1, Nat.add_le_add h2 h'.2⟩

theorem atLeast_bind0 {α β : Type} {x : Counted α} {f : α → Counted β} {v : α} {w : β} {b : Nat} (h : AtLeast x v 0) (h' : AtLeast (f v) w b) :
    AtLeast (x >>= f) w b := by
  obtain ⟨rfl, h2⟩ := h
  exact ⟨h'.1, h'.2.trans (Nat.le_add_left _ _)⟩

theorem muls_bind {α β : Type} {x : Counted α} {f : α → Counted β} {v : α} {a b : Nat} (h : AtLeast x v a) (h' : b ≤ (f v).muls) : a + b ≤ (x >>= f).muls := by
  obtain ⟨rfl, h2⟩ := h
  exact Nat.add_le_add h2 h'

theorem le_bind {α β : Type} {x : Counted α} {f : α → Counted β} {b : Nat} (h : b ≤ (f x.val).muls) : b ≤ (x >>= f).muls := h.trans (Nat.le_add_left _ _)

omit [IsField ff] in
theorem Mat.ext' {X Y : Mat ff} (h1 : X.nrows = Y.nrows) (h2 : X.ncols = Y.ncols) (h3 : X.fid = Y.fid) (h4 : ∀ i j, X.e i j = Y.e i j) : X = Y := by
  cases X
  cases Y
  simp only at h1 h2 h3 h4
  subst h1 h2 h3
  congr
  funext i j
  exact h4 i j

/-- the rows above `t` are eliminated, in the rows from `t` to `i` column `2t` as well; otherwise `a` in the columns of even number up to twice the number of the row -/
def stairs (a : Elem ff) (fid m t i0 : Nat) : Mat ff := ⟨2 * m, 2 * m, fid, fun i j =>
  if i < t then (if j = 2 * i then 1 else 0)
  else if i < 2 * m ∧ j < 2 * m ∧ j % 2 = 0 ∧ j ≤ 2 * i ∧ 2 * t ≤ j ∧ (i < i0 → 2 * t + 2 ≤ j) then a else 0⟩

/-- pivot row `t`, rows `t+1 … i0-1` cleared -/
def stairs1 (a : Elem ff) (fid m t i0 : Nat) : Mat ff := ⟨2 * m, 2 * m, fid, fun i j =>
  if i ≤ t then (if j = 2 * i then 1 else 0)
  else if i < 2 * m ∧ j < 2 * m ∧ j % 2 = 0 ∧ j ≤ 2 * i ∧ 2 * t ≤ j ∧ (i < i0 → 2 * t + 2 ≤ j) then a else 0⟩

/-- row `i0` is searched for a pivot in column `2t+1`: it is cleared in column `2t` and there is none -/
theorem stairs1_clear {a : Elem ff} (ha : a ≠ 0) {fid m t i0 : Nat} (ht : t < m) (h1 : t < i0) (h2 : i0 < 2 * m) (ha1 : a ≠ 1) :
    AtLeast (gaussClearC (stairs1 a fid m t i0).pack i0 t (2 * t) 1) (stairs1 a fid m t (i0 + 1)).pack (2 * m - 2 * t) := by
  unfold gaussClearC
  have hread : (stairs1 a fid m t i0).e i0 (2 * t + 0) = a := by
    show (if i0 ≤ t then _ else if _ then a else 0) = a
    rw [if_neg (by omega), if_pos ⟨h2, by omega, by omega, by omega, by omega, by omega⟩]
  have h0 : (a.1 = 0#64) = False := eq_false fun h => ha ((val_eq_zero _).1 h)
  have h1' : ¬ (a.1 = 0#64 ∨ a.1 = 1#64) := by
    rintro (h | h)
    · exact ha ((val_eq_zero _).1 h)
    · exact ha1 (Subtype.ext h)
  refine atLeast_bind0 (v := (stairs1 a fid m t i0).pack) ⟨rfl, Nat.zero_le _⟩ ?_
  dsimp only
  rw [read_pack, hread, if_neg (by rw [h0]; exact not_false)]
  refine ⟨?_, ?_⟩
  · unfold addMultC
    dsimp only
    rw [addMul_pack _ _ _ _ _ (show 2 * t + 0 < 2 * m by omega)]
    congr 1
    refine Mat.ext' rfl rfl rfl fun i j => ?_
    unfold Mat.addMul stairs1
    dsimp only
    simp only [Nat.add_zero]
    by_cases hit : i ≤ t
    · rw [if_neg (by omega), if_pos hit, if_pos hit]
    rw [if_neg hit, if_neg hit, if_pos (le_refl t)]
    by_cases hi : i = i0
    · subst hi
      by_cases hj : j = 2 * t
      · subst hj
        have c1 : i < 2 * m ∧ 2 * t < 2 * m ∧ 2 * t % 2 = 0 ∧ 2 * t ≤ 2 * i ∧ 2 * t ≤ 2 * t ∧ (i < i → 2 * t + 2 ≤ 2 * t) := by omega
        have c2 : ¬ (i < 2 * m ∧ 2 * t < 2 * m ∧ 2 * t % 2 = 0 ∧ 2 * t ≤ 2 * i ∧ 2 * t ≤ 2 * t ∧ (i < i + 1 → 2 * t + 2 ≤ 2 * t)) := by omega
        have c3 : i = i ∧ 2 * t ≤ 2 * t ∧ 2 * t < 2 * m := by omega
        rw [if_pos c3, if_pos c1, if_pos rfl, if_neg c2, mul_one, CharTwo.add_self_eq_zero]
      · have e1 : (i < 2 * m ∧ j < 2 * m ∧ j % 2 = 0 ∧ j ≤ 2 * i ∧ 2 * t ≤ j ∧ (i < i → 2 * t + 2 ≤ j)) ↔ (i < 2 * m ∧ j < 2 * m ∧ j % 2 = 0 ∧ j ≤ 2 * i ∧ 2 * t ≤ j ∧ (i < i + 1 → 2 * t + 2 ≤ j)) := by omega
        rw [if_neg hj, mul_zero, add_zero, ite_self]
        exact if_congr e1 rfl rfl
    · have c3 : ¬ (i = i0 ∧ 2 * t ≤ j ∧ j < 2 * m) := by omega
      have e1 : (i < 2 * m ∧ j < 2 * m ∧ j % 2 = 0 ∧ j ≤ 2 * i ∧ 2 * t ≤ j ∧ (i < i0 → 2 * t + 2 ≤ j)) ↔ (i < 2 * m ∧ j < 2 * m ∧ j % 2 = 0 ∧ j ≤ 2 * i ∧ 2 * t ≤ j ∧ (i < i0 + 1 → 2 * t + 2 ≤ j)) := by omega
      rw [if_neg c3]
      exact if_congr e1 rfl rfl
  · unfold addMultC
    dsimp only
    rw [if_neg h1']
    exact le_rfl


theorem stairs1_row {a : Elem ff} (ha : a ≠ 0) (ha1 : a ≠ 1) {fid m t : Nat} (ht : t < m) : ∀ N i0, t < i0 → i0 + N = 2 * m →
    AtLeast (gaussRowC t (2 * t) 1 N i0 (stairs1 a fid m t i0).pack) ((stairs1 a fid m t (2 * m)).pack, false) (N * (2 * m - 2 * t))
  | 0, i0, _, h => by
    rw [Nat.add_zero] at h
    subst h
    exact ⟨rfl, by omega⟩
  | N + 1, i0, h1, h => by
    unfold gaussRowC
    dsimp only
    rw [show (N + 1) * (2 * m - 2 * t) = (2 * m - 2 * t) + N * (2 * m - 2 * t) by ring]
    refine atLeast_bind (stairs1_clear ha ht h1 (by omega) ha1) ?_
    have hread : (stairs1 a fid m t (i0 + 1)).e i0 (2 * t + 1) = 0 := by
      show (if i0 ≤ t then _ else if _ then a else 0) = 0
      rw [if_neg (by omega), if_neg (by omega)]
    rw [read_pack, hread, if_pos ((val_eq_zero _).2 rfl)]
    exact stairs1_row ha ha1 ht N (i0 + 1) (by omega) (by omega)

/-- the first column of a round: the pivot is found at once -/
theorem stairs_pivot {a : Elem ff} (ha : a ≠ 0) {fid m t : Nat} (ht : t < m) :
    AtLeast (gaussRowC t (2 * t) 0 (2 * m - t) t (stairs a fid m t t).pack) ((stairs1 a fid m t (t + 1)).pack, true) 0 := by
  obtain ⟨N, hN⟩ : ∃ N, 2 * m - t = N + 1 := ⟨2 * m - t - 1, by omega⟩
  rw [hN]
  unfold gaussRowC
  dsimp only
  refine atLeast_bind0 (v := (stairs a fid m t t).pack) ⟨rfl, Nat.zero_le _⟩ ?_
  have hread : (stairs a fid m t t).e t (2 * t + 0) = a := by
    show (if t < t then _ else if _ then a else 0) = a
    rw [if_neg (by omega), if_pos ⟨by omega, by omega, by omega, by omega, by omega, by omega⟩]
  rw [read_pack, hread, if_neg (fun h => ha ((val_eq_zero _).1 h)), pack_ff, inv_pack]
  refine atLeast_bind0 (v := (stairs1 a fid m t (t + 1)).pack) ⟨?_, Nat.zero_le _⟩ ?_
  · unfold rescaleC
    dsimp only
    rw [rescale_pack _ _ _ (show 2 * t + 0 < 2 * m by omega)]
    congr 1
    refine Mat.ext' rfl rfl rfl fun i j => ?_
    unfold Mat.rescale stairs stairs1
    dsimp only
    by_cases h1 : i < t
    · have c3 : ¬ (i = t ∧ 2 * t + 0 ≤ j ∧ j < 2 * m) := by omega
      rw [if_neg c3, if_pos h1, if_pos (show i ≤ t by omega)]
    by_cases h2 : i = t
    · subst h2
      by_cases hj : j = 2 * i
      · subst hj
        have c1 : i < 2 * m ∧ 2 * i < 2 * m ∧ 2 * i % 2 = 0 ∧ 2 * i ≤ 2 * i ∧ 2 * i ≤ 2 * i ∧ (i < i → 2 * i + 2 ≤ 2 * i) := by omega
        have c3 : i = i ∧ 2 * i + 0 ≤ 2 * i ∧ 2 * i < 2 * m := by omega
        rw [if_neg (lt_irrefl i), if_pos (le_refl i), if_pos c3, if_pos c1, if_pos rfl, inv_mul_cancel₀ ha]
      · have c1 : ¬ (i < 2 * m ∧ j < 2 * m ∧ j % 2 = 0 ∧ j ≤ 2 * i ∧ 2 * i ≤ j ∧ (i < i → 2 * i + 2 ≤ j)) := by omega
        rw [if_neg (lt_irrefl i), if_pos (le_refl i), if_neg hj, if_neg c1, mul_zero, ite_self]
    · have c3 : ¬ (i = t ∧ 2 * t + 0 ≤ j ∧ j < 2 * m) := by omega
      have c4 : ¬ i ≤ t := by omega
      have e1 : (i < 2 * m ∧ j < 2 * m ∧ j % 2 = 0 ∧ j ≤ 2 * i ∧ 2 * t ≤ j ∧ (i < t → 2 * t + 2 ≤ j)) ↔ (i < 2 * m ∧ j < 2 * m ∧ j % 2 = 0 ∧ j ≤ 2 * i ∧ 2 * t ≤ j ∧ (i < t + 1 → 2 * t + 2 ≤ j)) := by omega
      rw [if_neg c3, if_neg h1, if_neg c4]
      exact if_congr e1 rfl rfl
  · rw [swapRows_pack]
    have hsw : (stairs1 a fid m t (t + 1)).swapRows t (t + 0) = stairs1 a fid m t (t + 1) := by
      refine Mat.ext' rfl rfl rfl fun i j => ?_
      unfold Mat.swapRows
      dsimp only
      have h : Equiv.swap t (t + 0) = Equiv.refl Nat := Equiv.swap_self t
      rw [h, Equiv.refl_apply, ite_self]
    rw [hsw]
    exact ⟨rfl, Nat.zero_le _⟩

theorem stairs1_eq (a : Elem ff) (fid m t : Nat) : stairs1 a fid m t (2 * m) = stairs a fid m (t + 1) (t + 1) := by
  refine Mat.ext' rfl rfl rfl fun i j => ?_
  unfold stairs stairs1
  dsimp only
  by_cases h1 : i ≤ t
  · rw [if_pos h1, if_pos (show i < t + 1 by omega)]
  · rw [if_neg h1, if_neg (show ¬ i < t + 1 by omega)]
    have e1 : (i < 2 * m ∧ j < 2 * m ∧ j % 2 = 0 ∧ j ≤ 2 * i ∧ 2 * t ≤ j ∧ (i < 2 * m → 2 * t + 2 ≤ j)) ↔ (i < 2 * m ∧ j < 2 * m ∧ j % 2 = 0 ∧ j ≤ 2 * i ∧ 2 * (t + 1) ≤ j ∧ (i < t + 1 → 2 * (t + 1) + 2 ≤ j)) := by omega
    exact if_congr e1 rfl rfl

/-- a round with a pivot in its first column and none in its second -/
theorem stairs_round {a : Elem ff} (ha : a ≠ 0) (ha1 : a ≠ 1) {fid m t k : Nat} (ht : t < m) (hk : 2 ≤ k) :
    AtLeast (gaussColsC t (2 * t) (2 * m) k 0 (stairs a fid m t t).pack) ((stairs a fid m (t + 1) (t + 1)).pack, 1) ((2 * m - (t + 1)) * (2 * m - 2 * t)) := by
  obtain ⟨q, rfl⟩ : ∃ q, k = q + 2 := ⟨k - 2, by omega⟩
  unfold gaussColsC
  rw [Nat.add_zero]
  refine atLeast_bind0 (stairs_pivot ha ht) ?_
  dsimp only
  rw [if_pos rfl]
  unfold gaussColsC
  refine (Nat.add_zero ((2 * m - (t + 1)) * (2 * m - 2 * t))) ▸ atLeast_bind (b := 0) (stairs1_row ha ha1 ht _ (t + 1) (by omega) (by omega)) ?_
  dsimp only
  rw [if_neg (by decide), stairs1_eq]
  exact ⟨rfl, Nat.zero_le _⟩

/-- the round after that: there is no pivot in the column of odd number -/
theorem stairs_empty (a : Elem ff) (fid m t : Nat) : ∀ N i0, gaussRowC (t + 1) (2 * t + 1) 0 N i0 (stairs a fid m (t + 1) (t + 1)).pack =
    (pure ((stairs a fid m (t + 1) (t + 1)).pack, false) : Counted (Mzed × Bool))
  | 0, _ => rfl
  | N + 1, i0 => by
    unfold gaussRowC
    have hread : (stairs a fid m (t + 1) (t + 1)).e i0 (2 * t + 1 + 0) = 0 := by
      show (if i0 < t + 1 then _ else if _ then a else 0) = 0
      by_cases h : i0 < t + 1
      · rw [if_pos h, if_neg (by omega)]
      · rw [if_neg h, if_neg (by omega)]
    have ih := stairs_empty a fid m t N (i0 + 1)
    have h : (if mzedReadElem (stairs a fid m (t + 1) (t + 1)).pack i0 (2 * t + 1 + 0) = 0#64
        then gaussRowC (t + 1) (2 * t + 1) 0 N (i0 + 1) (stairs a fid m (t + 1) (t + 1)).pack
        else do
          let A ← rescaleC (stairs a fid m (t + 1) (t + 1)).pack i0 (2 * t + 1 + 0) (gf2eInv (stairs a fid m (t + 1) (t + 1)).pack.ff
            (mzedReadElem (stairs a fid m (t + 1) (t + 1)).pack i0 (2 * t + 1 + 0)))
          let A ← gaussAboveC (mzedRowSwap A i0 (t + 1 + 0)) (t + 1) 0 (t + 1 + 0) (2 * t + 1 + 0)
          pure (A, true)) = (pure ((stairs a fid m (t + 1) (t + 1)).pack, false) : Counted (Mzed × Bool)) := by
      rw [read_pack, hread, if_pos ((val_eq_zero _).2 rfl), ih]
    unfold gaussClearC forNC
    exact (congrArg (fun y : Counted (Mzed × Bool) => (⟨y.val, 0 + y.muls, 0 + y.adds⟩ : Counted (Mzed × Bool))) h)

theorem gaussCols_zero {r c n k : Nat} (hk : 0 < k) {A : Mzed} (h : gaussRowC r c 0 (n - r) r A = (pure (A, false) : Counted (Mzed × Bool))) :
    gaussColsC r c n k 0 A = (pure (A, 0) : Counted (Mzed × Nat)) := by
  obtain ⟨q, rfl⟩ : ∃ q, k = q + 1 := ⟨k - 1, by omega⟩
  unfold gaussColsC
  rw [Nat.add_zero, h]
  rfl

theorem clip_le {c kk n : Nat} (h : 2 ≤ kk) (hc : c + 2 ≤ n) : 2 ≤ (if c + kk > n then n - c else kk) := by split_ifs <;> omega

/-- two passes for every second column -/
theorem stairs_loop (cb : Codebook) {a : Elem ff} (ha : a ≠ 0) (ha1 : a ≠ 1) {fid m : Nat} : ∀ d t fuel (Ts : Nat → Njt) (kk : Nat), t + d = m → (0 < d → 2 ≤ kk) → 2 * d ≤ fuel →
    m * (d * (d + 1)) ≤ (njEchLoopC cb false fuel (stairs a fid m t t).pack Ts t (2 * t) kk).muls
  | 0, _, _, _, _, _, _, _ => by omega
  | d + 1, t, fuel, Ts, kk, hd, hk, hf => by
    obtain ⟨f, rfl⟩ : ∃ f, fuel = f + 1 + 1 := ⟨fuel - 2, by omega⟩
    have hk1 : 2 ≤ (if 2 * t + kk > (stairs a fid m t t).pack.ncols then (stairs a fid m t t).pack.ncols - 2 * t else kk) := clip_le (hk (by omega)) (show 2 * t + 2 ≤ 2 * m by omega)
    have hc : 2 * t < (stairs a fid m t t).pack.ncols := show 2 * t < 2 * m by omega
    unfold njEchLoopC
    rw [if_pos hc]
    generalize (if 2 * t + kk > (stairs a fid m t t).pack.ncols then (stairs a fid m t t).pack.ncols - 2 * t else kk) = k1 at *
    dsimp only
    have hb : m * ((d + 1) * (d + 1 + 1)) ≤ (2 * m - (t + 1)) * (2 * m - 2 * t) + m * (d * (d + 1)) := by
      have e1 : 2 * m - (t + 1) = m + d := by omega
      have e2 : 2 * m - 2 * t = 2 * (d + 1) := by omega
      rw [e1, e2]
      nlinarith [Nat.zero_le (d * (d + 1))]
    refine hb.trans (muls_bind (stairs_round ha ha1 (by omega) hk1) ?_)
    dsimp only
    rw [if_pos ⟨le_rfl, by omega⟩]
    refine le_bind ?_
    generalize Counted.val _ = Ts'
    rw [if_neg (show ¬ (1 = k1) by omega)]
    refine le_bind ?_
    change m * (d * (d + 1)) ≤ 0 + (njEchLoopC cb false (f + 1) (stairs a fid m (t + 1) (t + 1)).pack Ts' (t + 1) (2 * t + 1) k1).muls
    rw [Nat.zero_add]
    have hc : 2 * t + 1 < (stairs a fid m (t + 1) (t + 1)).pack.ncols := show 2 * t + 1 < 2 * m by omega
    have hk2 : 0 < (if 2 * t + 1 + k1 > (stairs a fid m (t + 1) (t + 1)).pack.ncols then (stairs a fid m (t + 1) (t + 1)).pack.ncols - (2 * t + 1) else k1) := by
      split_ifs <;> omega
    have hk3 : 0 < d → 2 ≤ (if 2 * t + 1 + k1 > (stairs a fid m (t + 1) (t + 1)).pack.ncols then (stairs a fid m (t + 1) (t + 1)).pack.ncols - (2 * t + 1) else k1) := fun h =>
      clip_le hk1 (show 2 * t + 1 + 2 ≤ 2 * m by omega)
    unfold njEchLoopC
    rw [if_pos hc]
    generalize (if 2 * t + 1 + k1 > (stairs a fid m (t + 1) (t + 1)).pack.ncols then (stairs a fid m (t + 1) (t + 1)).pack.ncols - (2 * t + 1) else k1) = k2 at *
    dsimp only
    rw [gaussCols_zero hk2 (stairs_empty a fid m t _ _)]
    refine le_bind ?_
    exact stairs_loop cb ha ha1 d (t + 1) f Ts' k2 (by omega) hk3 (by omega)

end M4rie
