import Verif.Proofs.Block
import Verif.Proofs.Trsm

/-! Strassen multiplication. -/

namespace M4rie
open M4rie.Spec
variable {ff : Gf2e} [IsField ff]

section
variable {m n k : Nat}

theorem mat_even (z : ℤ) (x : Matrix (Fin m) (Fin n) (Elem ff)) : (z + z) • x = 0 := by
  have : ∀ y : Matrix (Fin m) (Fin n) (Elem ff), y + y = 0 := by
    intro y
    ext i j
    exact elem_add_self _
  rw [add_zsmul, this]

theorem mat2 (x : Matrix (Fin m) (Fin n) (Elem ff)) : (2 : ℤ) • x = 0 := mat_even 1 x
theorem mat4 (x : Matrix (Fin m) (Fin n) (Elem ff)) : (4 : ℤ) • x = 0 := mat_even 2 x
theorem mat6 (x : Matrix (Fin m) (Fin n) (Elem ff)) : (6 : ℤ) • x = 0 := mat_even 3 x
theorem mat8 (x : Matrix (Fin m) (Fin n) (Elem ff)) : (8 : ℤ) • x = 0 := mat_even 4 x
theorem mat10 (x : Matrix (Fin m) (Fin n) (Elem ff)) : (10 : ℤ) • x = 0 := mat_even 5 x
theorem mat12 (x : Matrix (Fin m) (Fin n) (Elem ff)) : (12 : ℤ) • x = 0 := mat_even 6 x

/-- close an identity between sums of products of matrices over a field of characteristic two -/
macro "char2" : tactic => `(tactic| (
  try simp only [Matrix.add_mul, Matrix.mul_add]
  try rw [← sub_eq_zero]
  try abel_nf
  try simp only [mat2, mat4, mat6, mat8, mat10, mat12, add_zero]))

/-- what a multiplication routine does on blocks of the given size -/
def MulSpec (mul : Mzed → Mzed → Mzed → Option Mzed) (m k n : Nat) (ff : Gf2e) [IsField ff] : Prop :=
  ∀ C A B : Mat ff, C.nrows = m → C.ncols = n → A.nrows = m → A.ncols = k → B.nrows = k → B.ncols = n →
    mul C.pack A.pack B.pack = some (C.put 0 0 (A.blk 0 0 m k * B.blk 0 0 k n)).pack

def AddmulSpec (mul : Mzed → Mzed → Mzed → Option Mzed) (m k n : Nat) (ff : Gf2e) [IsField ff] : Prop :=
  ∀ C A B : Mat ff, C.nrows = m → C.ncols = n → A.nrows = m → A.ncols = k → B.nrows = k → B.ncols = n →
    mul C.pack A.pack B.pack = some (C.put 0 0 (C.blk 0 0 m n + A.blk 0 0 m k * B.blk 0 0 k n)).pack

/-- four quarters put together -/
theorem quad_eq (S C : Mat ff) {m n : Nat} (M : Matrix (Fin (2 * m)) (Fin (2 * n)) (Elem ff)) (hd : S.nrows = C.nrows ∧ S.ncols = C.ncols ∧ S.fid = C.fid)
    (h11 : S.blk 0 0 m n = (C.put 0 0 M).blk 0 0 m n) (h12 : S.blk 0 n m n = (C.put 0 0 M).blk 0 n m n)
    (h21 : S.blk m 0 m n = (C.put 0 0 M).blk m 0 m n) (h22 : S.blk m n m n = (C.put 0 0 M).blk m n m n)
    (hf : ∀ i j, ¬ (i < 2 * m ∧ j < 2 * n) → S.e i j = C.e i j) : S = C.put 0 0 M := by
  refine Mat.ext hd.1 hd.2.1 hd.2.2 ?_
  funext i j
  by_cases h : i < 2 * m ∧ j < 2 * n
  · by_cases hi : i < m <;> by_cases hj : j < n
    · exact Mat.blk_eq h11 (by omega) (by omega)
    · exact Mat.blk_eq h12 (by omega) (by omega)
    · exact Mat.blk_eq h21 (by omega) (by omega)
    · exact Mat.blk_eq h22 (by omega) (by omega)
  · rw [hf i j h, Mat.put_out _ _ (by omega)]

/-- blocks of a product -/
theorem blk_prod (C A B : Mat ff) (m k n : Nat) {a b : Nat} (ha : a + m ≤ 2 * m) (hb : b + n ≤ 2 * n) :
    (C.put 0 0 (A.blk 0 0 (2 * m) (2 * k) * B.blk 0 0 (2 * k) (2 * n))).blk a b m n =
      A.blk a 0 m k * B.blk 0 b k n + A.blk a k m k * B.blk k b k n := by
  ext i j
  simp only [Mat.blk, Matrix.of_apply]
  rw [Mat.put_in _ _ (by omega)]
  simp only [Matrix.mul_apply, Matrix.add_apply, Matrix.of_apply, Nat.zero_add, Nat.sub_zero]
  rw [← Finset.sum_range (fun x => A.e (a + i) x * B.e x (b + j)), ← Finset.sum_range (fun x => A.e (a + i) x * B.e x (b + j)),
    ← Finset.sum_range (fun x => A.e (a + i) (k + x) * B.e (k + x) (b + j)), two_mul, Finset.sum_range_add]

theorem blk_add_prod (C A B : Mat ff) (m k n : Nat) {a b : Nat} (ha : a + m ≤ 2 * m) (hb : b + n ≤ 2 * n) :
    (C.put 0 0 (C.blk 0 0 (2 * m) (2 * n) + A.blk 0 0 (2 * m) (2 * k) * B.blk 0 0 (2 * k) (2 * n))).blk a b m n =
      C.blk a b m n + (A.blk a 0 m k * B.blk 0 b k n + A.blk a k m k * B.blk k b k n) := by
  rw [← blk_prod C A B m k n ha hb]
  ext i j
  simp only [Mat.blk, Matrix.of_apply, Matrix.add_apply]
  rw [Mat.put_in _ _ (by omega), Mat.put_in _ _ (by omega)]
  simp only [Matrix.add_apply, Matrix.of_apply, Nat.zero_add, Nat.sub_zero]

theorem step_mul {mul : Mzed → Mzed → Mzed → Option Mzed} (hmul : MulSpec mul m k n ff) {lr lc hr hc : Nat}
    (hr' : hr - lr = m) (hc' : hc - lc = n) (ha : degreeToW ff.degree * lc % 64 = 0) (C X Y : Mat ff)
    (h1 : X.nrows = m) (h2 : X.ncols = k) (h3 : Y.nrows = k) (h4 : Y.ncols = n) :
    onWindow C.pack lr lc hr hc (fun W => mul W X.pack Y.pack) = some (C.put lr lc (X.blk 0 0 m k * Y.blk 0 0 k n)).pack :=
  onWindow_pack ha (hmul _ _ _ hr' hc' h1 h2 h3 h4)

theorem step_addmul {mul : Mzed → Mzed → Mzed → Option Mzed} (hmul : AddmulSpec mul m k n ff) {lr lc hr hc : Nat}
    (hr' : hr - lr = m) (hc' : hc - lc = n) (ha : degreeToW ff.degree * lc % 64 = 0) (C X Y : Mat ff)
    (h1 : X.nrows = m) (h2 : X.ncols = k) (h3 : Y.nrows = k) (h4 : Y.ncols = n) :
    onWindow C.pack lr lc hr hc (fun W => mul W X.pack Y.pack) =
      some (C.put lr lc (C.blk lr lc m n + X.blk 0 0 m k * Y.blk 0 0 k n)).pack := by
  refine onWindow_pack ha ?_
  rw [hmul _ _ _ hr' hc' h1 h2 h3 h4, Mat.blk_window]
  rfl

theorem step_add_r {lr lc hr hc : Nat} (hr' : hr - lr = m) (hc' : hc - lc = n) (ha : degreeToW ff.degree * lc % 64 = 0) (C X : Mat ff) :
    onWindow C.pack lr lc hr hc (fun W => some (mzedAddRaw W W X.pack)) = some (C.put lr lc (C.blk lr lc m n + X.blk 0 0 m n)).pack := by
  refine onWindow_pack ha ?_
  rw [addRaw_pack _ _ _ hr' hc', Mat.blk_window]
  rfl

theorem step_add_l {lr lc hr hc : Nat} (hr' : hr - lr = m) (hc' : hc - lc = n) (ha : degreeToW ff.degree * lc % 64 = 0) (C X : Mat ff)
    (h1 : X.nrows = m) (h2 : X.ncols = n) :
    onWindow C.pack lr lc hr hc (fun W => some (mzedAddRaw W X.pack W)) = some (C.put lr lc (X.blk 0 0 m n + C.blk lr lc m n)).pack := by
  refine onWindow_pack ha ?_
  rw [addRaw_pack _ _ _ h1 h2, Mat.blk_window]
  rfl

theorem dj01 (X : Mat ff) (M : Matrix (Fin m) (Fin n) (Elem ff)) : (X.put 0 0 M).blk 0 n m n = X.blk 0 n m n :=
  Mat.blk_put_disj _ _ (by omega)
theorem dj02 (X : Mat ff) (M : Matrix (Fin m) (Fin n) (Elem ff)) : (X.put 0 0 M).blk m 0 m n = X.blk m 0 m n :=
  Mat.blk_put_disj _ _ (by omega)
theorem dj03 (X : Mat ff) (M : Matrix (Fin m) (Fin n) (Elem ff)) : (X.put 0 0 M).blk m n m n = X.blk m n m n :=
  Mat.blk_put_disj _ _ (by omega)
theorem dj10 (X : Mat ff) (M : Matrix (Fin m) (Fin n) (Elem ff)) : (X.put 0 n M).blk 0 0 m n = X.blk 0 0 m n :=
  Mat.blk_put_disj _ _ (by omega)
theorem dj12 (X : Mat ff) (M : Matrix (Fin m) (Fin n) (Elem ff)) : (X.put 0 n M).blk m 0 m n = X.blk m 0 m n :=
  Mat.blk_put_disj _ _ (by omega)
theorem dj13 (X : Mat ff) (M : Matrix (Fin m) (Fin n) (Elem ff)) : (X.put 0 n M).blk m n m n = X.blk m n m n :=
  Mat.blk_put_disj _ _ (by omega)
theorem dj20 (X : Mat ff) (M : Matrix (Fin m) (Fin n) (Elem ff)) : (X.put m 0 M).blk 0 0 m n = X.blk 0 0 m n :=
  Mat.blk_put_disj _ _ (by omega)
theorem dj21 (X : Mat ff) (M : Matrix (Fin m) (Fin n) (Elem ff)) : (X.put m 0 M).blk 0 n m n = X.blk 0 n m n :=
  Mat.blk_put_disj _ _ (by omega)
theorem dj23 (X : Mat ff) (M : Matrix (Fin m) (Fin n) (Elem ff)) : (X.put m 0 M).blk m n m n = X.blk m n m n :=
  Mat.blk_put_disj _ _ (by omega)
theorem dj30 (X : Mat ff) (M : Matrix (Fin m) (Fin n) (Elem ff)) : (X.put m n M).blk 0 0 m n = X.blk 0 0 m n :=
  Mat.blk_put_disj _ _ (by omega)
theorem dj31 (X : Mat ff) (M : Matrix (Fin m) (Fin n) (Elem ff)) : (X.put m n M).blk 0 n m n = X.blk 0 n m n :=
  Mat.blk_put_disj _ _ (by omega)
theorem dj32 (X : Mat ff) (M : Matrix (Fin m) (Fin n) (Elem ff)) : (X.put m n M).blk m 0 m n = X.blk m 0 m n :=
  Mat.blk_put_disj _ _ (by omega)


/-- `S` agrees with `C` except for the four quarters, whose contents are given -/
structure Quad (C S : Mat ff) (c11 c12 c21 c22 : Matrix (Fin m) (Fin n) (Elem ff)) : Prop where
  nrows : S.nrows = C.nrows
  ncols : S.ncols = C.ncols
  fid : S.fid = C.fid
  b11 : S.blk 0 0 m n = c11
  b12 : S.blk 0 n m n = c12
  b21 : S.blk m 0 m n = c21
  b22 : S.blk m n m n = c22
  out : ∀ i j, ¬ (i < 2 * m ∧ j < 2 * n) → S.e i j = C.e i j

/-- a temporary with given contents -/
structure Tmp (X : Mat ff) (M : Matrix (Fin m) (Fin n) (Elem ff)) : Prop where
  nrows : X.nrows = m
  ncols : X.ncols = n
  b : X.blk 0 0 m n = M

theorem Tmp.add {W X Y : Mat ff} {MW MX MY : Matrix (Fin m) (Fin n) (Elem ff)} (hW : Tmp W MW) (hX : Tmp X MX) (hY : Tmp Y MY) :
    ∃ Z : Mat ff, mzedAddRaw W.pack X.pack Y.pack = Z.pack ∧ Tmp Z (MX + MY) :=
  ⟨_, addRaw_pack W X Y hX.nrows hX.ncols, by simpa using hW.nrows, by simpa using hW.ncols, by rw [Mat.blk_put_self, hX.b, hY.b]⟩

theorem Tmp.win (A : Mat ff) {a b c d : Nat} (h1 : c - a = m) (h2 : d - b = n) : Tmp (A.window a b c d) (A.blk a b m n) :=
  ⟨h1, h2, by rw [Mat.blk_window]; rfl⟩

theorem Tmp.mul {mul : Mzed → Mzed → Mzed → Option Mzed} (hmul : MulSpec mul m k n ff) {W X Y : Mat ff} {MW : Matrix (Fin m) (Fin n) (Elem ff)}
    {MX : Matrix (Fin m) (Fin k) (Elem ff)} {MY : Matrix (Fin k) (Fin n) (Elem ff)} (hW : Tmp W MW) (hX : Tmp X MX) (hY : Tmp Y MY) :
    ∃ Z : Mat ff, mul W.pack X.pack Y.pack = some Z.pack ∧ Tmp Z (MX * MY) :=
  ⟨_, hmul W X Y hW.nrows hW.ncols hX.nrows hX.ncols hY.nrows hY.ncols, by simpa using hW.nrows, by simpa using hW.ncols,
    by rw [Mat.blk_put_self, hX.b, hY.b]⟩

theorem Tmp.addmul {mul : Mzed → Mzed → Mzed → Option Mzed} (hmul : AddmulSpec mul m k n ff) {W X Y : Mat ff} {MW : Matrix (Fin m) (Fin n) (Elem ff)}
    {MX : Matrix (Fin m) (Fin k) (Elem ff)} {MY : Matrix (Fin k) (Fin n) (Elem ff)} (hW : Tmp W MW) (hX : Tmp X MX) (hY : Tmp Y MY) :
    ∃ Z : Mat ff, mul W.pack X.pack Y.pack = some Z.pack ∧ Tmp Z (MW + MX * MY) :=
  ⟨_, hmul W X Y hW.nrows hW.ncols hX.nrows hX.ncols hY.nrows hY.ncols, by simpa using hW.nrows, by simpa using hW.ncols,
    by rw [Mat.blk_put_self, hW.b, hX.b, hY.b]⟩

theorem Quad.put11 {C S : Mat ff} {c11 c12 c21 c22 : Matrix (Fin m) (Fin n) (Elem ff)} (h : Quad C S c11 c12 c21 c22)
    (M : Matrix (Fin m) (Fin n) (Elem ff)) : Quad C (S.put 0 0 M) M c12 c21 c22 where
  nrows := by simpa using h.nrows
  ncols := by simpa using h.ncols
  fid := by simpa using h.fid
  b11 := Mat.blk_put_self _ _ _ _
  b12 := (dj01 _ _).trans h.b12
  b21 := (dj02 _ _).trans h.b21
  b22 := (dj03 _ _).trans h.b22
  out := fun i j hij => by rw [Mat.put_out _ _ (by omega)]; exact h.out i j hij

theorem Quad.win11 {C S : Mat ff} {c11 c12 c21 c22 : Matrix (Fin m) (Fin n) (Elem ff)} (h : Quad C S c11 c12 c21 c22)
    (hn : degreeToW ff.degree * n % 64 = 0) : ∃ W : Mat ff, mzedWindow S.pack 0 0 m n = W.pack ∧ Tmp W c11 :=
  ⟨_, window_pack _ _ _ _ _ (by simpa using hn), by rw [← h.b11]; exact Tmp.win _ (by omega) (by omega)⟩

theorem Quad.mul11 {mul : Mzed → Mzed → Mzed → Option Mzed} (hmul : MulSpec mul m k n ff) {C S X Y : Mat ff}
    {c11 c12 c21 c22 : Matrix (Fin m) (Fin n) (Elem ff)} {MX : Matrix (Fin m) (Fin k) (Elem ff)} {MY : Matrix (Fin k) (Fin n) (Elem ff)}
    (h : Quad C S c11 c12 c21 c22) (hn : degreeToW ff.degree * n % 64 = 0) (hX : Tmp X MX) (hY : Tmp Y MY) :
    ∃ S' : Mat ff, (onWindow S.pack 0 0 m n fun W => mul W X.pack Y.pack) = some S'.pack ∧ Quad C S' (MX * MY) c12 c21 c22 :=
  ⟨_, step_mul hmul (hr := m) (hc := n) (by omega) (by omega) (by simpa using hn) S X Y hX.nrows hX.ncols hY.nrows hY.ncols, by rw [hX.b, hY.b]; exact h.put11 _⟩

theorem Quad.addmul11 {mul : Mzed → Mzed → Mzed → Option Mzed} (hmul : AddmulSpec mul m k n ff) {C S X Y : Mat ff}
    {c11 c12 c21 c22 : Matrix (Fin m) (Fin n) (Elem ff)} {MX : Matrix (Fin m) (Fin k) (Elem ff)} {MY : Matrix (Fin k) (Fin n) (Elem ff)}
    (h : Quad C S c11 c12 c21 c22) (hn : degreeToW ff.degree * n % 64 = 0) (hX : Tmp X MX) (hY : Tmp Y MY) :
    ∃ S' : Mat ff, (onWindow S.pack 0 0 m n fun W => mul W X.pack Y.pack) = some S'.pack ∧ Quad C S' (c11 + MX * MY) c12 c21 c22 :=
  ⟨_, step_addmul hmul (by omega) (by omega) (by simpa using hn) S X Y hX.nrows hX.ncols hY.nrows hY.ncols, by rw [hX.b, hY.b, h.b11]; exact h.put11 _⟩

theorem Quad.addr11 {C S X : Mat ff} {c11 c12 c21 c22 MX : Matrix (Fin m) (Fin n) (Elem ff)}
    (h : Quad C S c11 c12 c21 c22) (hn : degreeToW ff.degree * n % 64 = 0) (hX : Tmp X MX) :
    ∃ S' : Mat ff, (onWindow S.pack 0 0 m n fun W => some (mzedAddRaw W W X.pack)) = some S'.pack ∧ Quad C S' (c11 + MX) c12 c21 c22 :=
  ⟨_, step_add_r (m := m) (n := n) (hr := m) (hc := n) (by omega) (by omega) (by simpa using hn) S X, by rw [hX.b, h.b11]; exact h.put11 _⟩

theorem Quad.addl11 {C S X : Mat ff} {c11 c12 c21 c22 MX : Matrix (Fin m) (Fin n) (Elem ff)}
    (h : Quad C S c11 c12 c21 c22) (hn : degreeToW ff.degree * n % 64 = 0) (hX : Tmp X MX) :
    ∃ S' : Mat ff, (onWindow S.pack 0 0 m n fun W => some (mzedAddRaw W X.pack W)) = some S'.pack ∧ Quad C S' (MX + c11) c12 c21 c22 :=
  ⟨_, step_add_l (by omega) (by omega) (by simpa using hn) S X hX.nrows hX.ncols, by rw [hX.b, h.b11]; exact h.put11 _⟩

theorem Quad.put12 {C S : Mat ff} {c11 c12 c21 c22 : Matrix (Fin m) (Fin n) (Elem ff)} (h : Quad C S c11 c12 c21 c22)
    (M : Matrix (Fin m) (Fin n) (Elem ff)) : Quad C (S.put 0 n M) c11 M c21 c22 where
  nrows := by simpa using h.nrows
  ncols := by simpa using h.ncols
  fid := by simpa using h.fid
  b11 := (dj10 _ _).trans h.b11
  b12 := Mat.blk_put_self _ _ _ _
  b21 := (dj12 _ _).trans h.b21
  b22 := (dj13 _ _).trans h.b22
  out := fun i j hij => by rw [Mat.put_out _ _ (by omega)]; exact h.out i j hij

theorem Quad.win12 {C S : Mat ff} {c11 c12 c21 c22 : Matrix (Fin m) (Fin n) (Elem ff)} (h : Quad C S c11 c12 c21 c22)
    (hn : degreeToW ff.degree * n % 64 = 0) : ∃ W : Mat ff, mzedWindow S.pack 0 n m (2 * n) = W.pack ∧ Tmp W c12 :=
  ⟨_, window_pack _ _ _ _ _ (by simpa using hn), by rw [← h.b12]; exact Tmp.win _ (by omega) (by omega)⟩

theorem Quad.mul12 {mul : Mzed → Mzed → Mzed → Option Mzed} (hmul : MulSpec mul m k n ff) {C S X Y : Mat ff}
    {c11 c12 c21 c22 : Matrix (Fin m) (Fin n) (Elem ff)} {MX : Matrix (Fin m) (Fin k) (Elem ff)} {MY : Matrix (Fin k) (Fin n) (Elem ff)}
    (h : Quad C S c11 c12 c21 c22) (hn : degreeToW ff.degree * n % 64 = 0) (hX : Tmp X MX) (hY : Tmp Y MY) :
    ∃ S' : Mat ff, (onWindow S.pack 0 n m (2 * n) fun W => mul W X.pack Y.pack) = some S'.pack ∧ Quad C S' c11 (MX * MY) c21 c22 :=
  ⟨_, step_mul hmul (hr := m) (hc := (2 * n)) (by omega) (by omega) (by simpa using hn) S X Y hX.nrows hX.ncols hY.nrows hY.ncols, by rw [hX.b, hY.b]; exact h.put12 _⟩

theorem Quad.addmul12 {mul : Mzed → Mzed → Mzed → Option Mzed} (hmul : AddmulSpec mul m k n ff) {C S X Y : Mat ff}
    {c11 c12 c21 c22 : Matrix (Fin m) (Fin n) (Elem ff)} {MX : Matrix (Fin m) (Fin k) (Elem ff)} {MY : Matrix (Fin k) (Fin n) (Elem ff)}
    (h : Quad C S c11 c12 c21 c22) (hn : degreeToW ff.degree * n % 64 = 0) (hX : Tmp X MX) (hY : Tmp Y MY) :
    ∃ S' : Mat ff, (onWindow S.pack 0 n m (2 * n) fun W => mul W X.pack Y.pack) = some S'.pack ∧ Quad C S' c11 (c12 + MX * MY) c21 c22 :=
  ⟨_, step_addmul hmul (by omega) (by omega) (by simpa using hn) S X Y hX.nrows hX.ncols hY.nrows hY.ncols, by rw [hX.b, hY.b, h.b12]; exact h.put12 _⟩

theorem Quad.addr12 {C S X : Mat ff} {c11 c12 c21 c22 MX : Matrix (Fin m) (Fin n) (Elem ff)}
    (h : Quad C S c11 c12 c21 c22) (hn : degreeToW ff.degree * n % 64 = 0) (hX : Tmp X MX) :
    ∃ S' : Mat ff, (onWindow S.pack 0 n m (2 * n) fun W => some (mzedAddRaw W W X.pack)) = some S'.pack ∧ Quad C S' c11 (c12 + MX) c21 c22 :=
  ⟨_, step_add_r (m := m) (n := n) (hr := m) (hc := (2 * n)) (by omega) (by omega) (by simpa using hn) S X, by rw [hX.b, h.b12]; exact h.put12 _⟩

theorem Quad.addl12 {C S X : Mat ff} {c11 c12 c21 c22 MX : Matrix (Fin m) (Fin n) (Elem ff)}
    (h : Quad C S c11 c12 c21 c22) (hn : degreeToW ff.degree * n % 64 = 0) (hX : Tmp X MX) :
    ∃ S' : Mat ff, (onWindow S.pack 0 n m (2 * n) fun W => some (mzedAddRaw W X.pack W)) = some S'.pack ∧ Quad C S' c11 (MX + c12) c21 c22 :=
  ⟨_, step_add_l (by omega) (by omega) (by simpa using hn) S X hX.nrows hX.ncols, by rw [hX.b, h.b12]; exact h.put12 _⟩

theorem Quad.put21 {C S : Mat ff} {c11 c12 c21 c22 : Matrix (Fin m) (Fin n) (Elem ff)} (h : Quad C S c11 c12 c21 c22)
    (M : Matrix (Fin m) (Fin n) (Elem ff)) : Quad C (S.put m 0 M) c11 c12 M c22 where
  nrows := by simpa using h.nrows
  ncols := by simpa using h.ncols
  fid := by simpa using h.fid
  b11 := (dj20 _ _).trans h.b11
  b12 := (dj21 _ _).trans h.b12
  b21 := Mat.blk_put_self _ _ _ _
  b22 := (dj23 _ _).trans h.b22
  out := fun i j hij => by rw [Mat.put_out _ _ (by omega)]; exact h.out i j hij

theorem Quad.win21 {C S : Mat ff} {c11 c12 c21 c22 : Matrix (Fin m) (Fin n) (Elem ff)} (h : Quad C S c11 c12 c21 c22)
    (hn : degreeToW ff.degree * n % 64 = 0) : ∃ W : Mat ff, mzedWindow S.pack m 0 (2 * m) n = W.pack ∧ Tmp W c21 :=
  ⟨_, window_pack _ _ _ _ _ (by simpa using hn), by rw [← h.b21]; exact Tmp.win _ (by omega) (by omega)⟩

theorem Quad.mul21 {mul : Mzed → Mzed → Mzed → Option Mzed} (hmul : MulSpec mul m k n ff) {C S X Y : Mat ff}
    {c11 c12 c21 c22 : Matrix (Fin m) (Fin n) (Elem ff)} {MX : Matrix (Fin m) (Fin k) (Elem ff)} {MY : Matrix (Fin k) (Fin n) (Elem ff)}
    (h : Quad C S c11 c12 c21 c22) (hn : degreeToW ff.degree * n % 64 = 0) (hX : Tmp X MX) (hY : Tmp Y MY) :
    ∃ S' : Mat ff, (onWindow S.pack m 0 (2 * m) n fun W => mul W X.pack Y.pack) = some S'.pack ∧ Quad C S' c11 c12 (MX * MY) c22 :=
  ⟨_, step_mul hmul (hr := (2 * m)) (hc := n) (by omega) (by omega) (by simpa using hn) S X Y hX.nrows hX.ncols hY.nrows hY.ncols, by rw [hX.b, hY.b]; exact h.put21 _⟩

theorem Quad.addmul21 {mul : Mzed → Mzed → Mzed → Option Mzed} (hmul : AddmulSpec mul m k n ff) {C S X Y : Mat ff}
    {c11 c12 c21 c22 : Matrix (Fin m) (Fin n) (Elem ff)} {MX : Matrix (Fin m) (Fin k) (Elem ff)} {MY : Matrix (Fin k) (Fin n) (Elem ff)}
    (h : Quad C S c11 c12 c21 c22) (hn : degreeToW ff.degree * n % 64 = 0) (hX : Tmp X MX) (hY : Tmp Y MY) :
    ∃ S' : Mat ff, (onWindow S.pack m 0 (2 * m) n fun W => mul W X.pack Y.pack) = some S'.pack ∧ Quad C S' c11 c12 (c21 + MX * MY) c22 :=
  ⟨_, step_addmul hmul (by omega) (by omega) (by simpa using hn) S X Y hX.nrows hX.ncols hY.nrows hY.ncols, by rw [hX.b, hY.b, h.b21]; exact h.put21 _⟩

theorem Quad.addr21 {C S X : Mat ff} {c11 c12 c21 c22 MX : Matrix (Fin m) (Fin n) (Elem ff)}
    (h : Quad C S c11 c12 c21 c22) (hn : degreeToW ff.degree * n % 64 = 0) (hX : Tmp X MX) :
    ∃ S' : Mat ff, (onWindow S.pack m 0 (2 * m) n fun W => some (mzedAddRaw W W X.pack)) = some S'.pack ∧ Quad C S' c11 c12 (c21 + MX) c22 :=
  ⟨_, step_add_r (m := m) (n := n) (hr := (2 * m)) (hc := n) (by omega) (by omega) (by simpa using hn) S X, by rw [hX.b, h.b21]; exact h.put21 _⟩

theorem Quad.addl21 {C S X : Mat ff} {c11 c12 c21 c22 MX : Matrix (Fin m) (Fin n) (Elem ff)}
    (h : Quad C S c11 c12 c21 c22) (hn : degreeToW ff.degree * n % 64 = 0) (hX : Tmp X MX) :
    ∃ S' : Mat ff, (onWindow S.pack m 0 (2 * m) n fun W => some (mzedAddRaw W X.pack W)) = some S'.pack ∧ Quad C S' c11 c12 (MX + c21) c22 :=
  ⟨_, step_add_l (by omega) (by omega) (by simpa using hn) S X hX.nrows hX.ncols, by rw [hX.b, h.b21]; exact h.put21 _⟩

theorem Quad.put22 {C S : Mat ff} {c11 c12 c21 c22 : Matrix (Fin m) (Fin n) (Elem ff)} (h : Quad C S c11 c12 c21 c22)
    (M : Matrix (Fin m) (Fin n) (Elem ff)) : Quad C (S.put m n M) c11 c12 c21 M where
  nrows := by simpa using h.nrows
  ncols := by simpa using h.ncols
  fid := by simpa using h.fid
  b11 := (dj30 _ _).trans h.b11
  b12 := (dj31 _ _).trans h.b12
  b21 := (dj32 _ _).trans h.b21
  b22 := Mat.blk_put_self _ _ _ _
  out := fun i j hij => by rw [Mat.put_out _ _ (by omega)]; exact h.out i j hij

theorem Quad.win22 {C S : Mat ff} {c11 c12 c21 c22 : Matrix (Fin m) (Fin n) (Elem ff)} (h : Quad C S c11 c12 c21 c22)
    (hn : degreeToW ff.degree * n % 64 = 0) : ∃ W : Mat ff, mzedWindow S.pack m n (2 * m) (2 * n) = W.pack ∧ Tmp W c22 :=
  ⟨_, window_pack _ _ _ _ _ (by simpa using hn), by rw [← h.b22]; exact Tmp.win _ (by omega) (by omega)⟩

theorem Quad.mul22 {mul : Mzed → Mzed → Mzed → Option Mzed} (hmul : MulSpec mul m k n ff) {C S X Y : Mat ff}
    {c11 c12 c21 c22 : Matrix (Fin m) (Fin n) (Elem ff)} {MX : Matrix (Fin m) (Fin k) (Elem ff)} {MY : Matrix (Fin k) (Fin n) (Elem ff)}
    (h : Quad C S c11 c12 c21 c22) (hn : degreeToW ff.degree * n % 64 = 0) (hX : Tmp X MX) (hY : Tmp Y MY) :
    ∃ S' : Mat ff, (onWindow S.pack m n (2 * m) (2 * n) fun W => mul W X.pack Y.pack) = some S'.pack ∧ Quad C S' c11 c12 c21 (MX * MY) :=
  ⟨_, step_mul hmul (hr := (2 * m)) (hc := (2 * n)) (by omega) (by omega) (by simpa using hn) S X Y hX.nrows hX.ncols hY.nrows hY.ncols, by rw [hX.b, hY.b]; exact h.put22 _⟩

theorem Quad.addmul22 {mul : Mzed → Mzed → Mzed → Option Mzed} (hmul : AddmulSpec mul m k n ff) {C S X Y : Mat ff}
    {c11 c12 c21 c22 : Matrix (Fin m) (Fin n) (Elem ff)} {MX : Matrix (Fin m) (Fin k) (Elem ff)} {MY : Matrix (Fin k) (Fin n) (Elem ff)}
    (h : Quad C S c11 c12 c21 c22) (hn : degreeToW ff.degree * n % 64 = 0) (hX : Tmp X MX) (hY : Tmp Y MY) :
    ∃ S' : Mat ff, (onWindow S.pack m n (2 * m) (2 * n) fun W => mul W X.pack Y.pack) = some S'.pack ∧ Quad C S' c11 c12 c21 (c22 + MX * MY) :=
  ⟨_, step_addmul hmul (by omega) (by omega) (by simpa using hn) S X Y hX.nrows hX.ncols hY.nrows hY.ncols, by rw [hX.b, hY.b, h.b22]; exact h.put22 _⟩

theorem Quad.addr22 {C S X : Mat ff} {c11 c12 c21 c22 MX : Matrix (Fin m) (Fin n) (Elem ff)}
    (h : Quad C S c11 c12 c21 c22) (hn : degreeToW ff.degree * n % 64 = 0) (hX : Tmp X MX) :
    ∃ S' : Mat ff, (onWindow S.pack m n (2 * m) (2 * n) fun W => some (mzedAddRaw W W X.pack)) = some S'.pack ∧ Quad C S' c11 c12 c21 (c22 + MX) :=
  ⟨_, step_add_r (m := m) (n := n) (hr := (2 * m)) (hc := (2 * n)) (by omega) (by omega) (by simpa using hn) S X, by rw [hX.b, h.b22]; exact h.put22 _⟩

theorem Quad.addl22 {C S X : Mat ff} {c11 c12 c21 c22 MX : Matrix (Fin m) (Fin n) (Elem ff)}
    (h : Quad C S c11 c12 c21 c22) (hn : degreeToW ff.degree * n % 64 = 0) (hX : Tmp X MX) :
    ∃ S' : Mat ff, (onWindow S.pack m n (2 * m) (2 * n) fun W => some (mzedAddRaw W X.pack W)) = some S'.pack ∧ Quad C S' c11 c12 c21 (MX + c22) :=
  ⟨_, step_add_l (by omega) (by omega) (by simpa using hn) S X hX.nrows hX.ncols, by rw [hX.b, h.b22]; exact h.put22 _⟩

theorem strassenMulStep_pack {mul : Mzed → Mzed → Mzed → Option Mzed} (C A B : Mat ff) {m k n : Nat}
    (hk : degreeToW ff.degree * k % 64 = 0) (hn : degreeToW ff.degree * n % 64 = 0) (hmul : MulSpec mul m k n ff) :
    strassenMulStep mul C.pack A.pack B.pack m k n =
      some (C.put 0 0 (A.blk 0 0 (2 * m) (2 * k) * B.blk 0 0 (2 * k) (2 * n))).pack := by
  have h0 : degreeToW ff.degree * 0 % 64 = 0 := by simp
  unfold strassenMulStep
  simp only [window_pack _ _ _ _ _ h0, window_pack _ _ _ _ _ hk, window_pack _ _ _ _ _ hn, pack_ff, pack_fid, pack_nrows, pack_ncols,
    init_pack, Option.bind_eq_bind]
  have hA11 : Tmp (A.window 0 0 m k) (A.blk 0 0 m k) := Tmp.win _ (by omega) (by omega)
  have hA12 : Tmp (A.window 0 k m (2 * k)) (A.blk 0 k m k) := Tmp.win _ (by omega) (by omega)
  have hA21 : Tmp (A.window m 0 (2 * m) k) (A.blk m 0 m k) := Tmp.win _ (by omega) (by omega)
  have hA22 : Tmp (A.window m k (2 * m) (2 * k)) (A.blk m k m k) := Tmp.win _ (by omega) (by omega)
  have hB11 : Tmp (B.window 0 0 k n) (B.blk 0 0 k n) := Tmp.win _ (by omega) (by omega)
  have hB12 : Tmp (B.window 0 n k (2 * n)) (B.blk 0 n k n) := Tmp.win _ (by omega) (by omega)
  have hB21 : Tmp (B.window k 0 (2 * k) n) (B.blk k 0 k n) := Tmp.win _ (by omega) (by omega)
  have hB22 : Tmp (B.window k n (2 * k) (2 * n)) (B.blk k n k n) := Tmp.win _ (by omega) (by omega)
  have hmk : Tmp (⟨m, k, A.fid, fun _ _ => 0⟩ : Mat ff) _ := ⟨rfl, rfl, rfl⟩
  have hkn : Tmp (⟨k, n, A.fid, fun _ _ => 0⟩ : Mat ff) _ := ⟨rfl, rfl, rfl⟩
  have hmn : Tmp (⟨m, n, A.fid, fun _ _ => 0⟩ : Mat ff) _ := ⟨rfl, rfl, rfl⟩
  generalize A.window 0 0 m k = A11 at hA11 ⊢
  generalize A.window 0 k m (2 * k) = A12 at hA12 ⊢
  generalize A.window m 0 (2 * m) k = A21 at hA21 ⊢
  generalize A.window m k (2 * m) (2 * k) = A22 at hA22 ⊢
  generalize B.window 0 0 k n = B11 at hB11 ⊢
  generalize B.window 0 n k (2 * n) = B12 at hB12 ⊢
  generalize B.window k 0 (2 * k) n = B21 at hB21 ⊢
  generalize B.window k n (2 * k) (2 * n) = B22 at hB22 ⊢
  have q : Quad C C (C.blk 0 0 m n) (C.blk 0 n m n) (C.blk m 0 m n) (C.blk m n m n) := ⟨rfl, rfl, rfl, rfl, rfl, rfl, rfl, fun _ _ _ => rfl⟩
  obtain ⟨K1, e, hK1⟩ := Tmp.add hkn hB22 hB12
  rw [e]; clear e
  obtain ⟨M1, e, hM1⟩ := Tmp.add hmk hA22 hA12
  rw [e]; clear e
  obtain ⟨S1, e, q⟩ := q.mul21 hmul hn hM1 hK1
  rw [e, Option.bind_some]; clear e
  obtain ⟨M2, e, hM2⟩ := Tmp.add hM1 hA22 hA21
  rw [e]; clear e
  obtain ⟨K2, e, hK2⟩ := Tmp.add hK1 hB22 hB21
  rw [e]; clear e
  obtain ⟨S2, e, q⟩ := q.mul22 hmul hn hM2 hK2
  rw [e, Option.bind_some]; clear e
  obtain ⟨K3, e, hK3⟩ := Tmp.add hK2 hK2 hB12
  rw [e]; clear e
  obtain ⟨M3, e, hM3⟩ := Tmp.add hM2 hM2 hA12
  rw [e]; clear e
  obtain ⟨S3, e, q⟩ := q.mul11 hmul hn hM3 hK3
  rw [e, Option.bind_some]; clear e
  obtain ⟨M4, e, hM4⟩ := Tmp.add hM3 hM3 hA11
  rw [e]; clear e
  obtain ⟨S4, e, q⟩ := q.mul12 hmul hn hM4 hB12
  rw [e, Option.bind_some]; clear e
  obtain ⟨V, e, hV⟩ := q.win22 hn
  rw [e]; clear e
  obtain ⟨S5, e, q⟩ := q.addr12 hn hV
  rw [e, Option.bind_some]; clear e
  obtain ⟨U, e, hU⟩ := Tmp.mul hmul (W := ⟨A12.nrows, B21.ncols, A12.fid, fun _ _ => 0⟩) ⟨hA12.nrows, hB21.ncols, rfl⟩ hA12 hB21
  rw [e, Option.bind_some]; clear e
  obtain ⟨S6, e, q⟩ := q.addr11 hn hU
  rw [e, Option.bind_some]; clear e
  obtain ⟨V, e, hV⟩ := q.win11 hn
  rw [e]; clear e
  obtain ⟨S7, e, q⟩ := q.addl12 hn hV
  rw [e, Option.bind_some]; clear e
  obtain ⟨V, e, hV⟩ := q.win21 hn
  rw [e]; clear e
  obtain ⟨S8, e, q⟩ := q.addl11 hn hV
  rw [e, Option.bind_some]; clear e
  obtain ⟨K4, e, hK4⟩ := Tmp.add hK3 hK3 hB11
  rw [e]; clear e
  obtain ⟨S9, e, q⟩ := q.mul21 hmul hn hA21 hK4
  rw [e, Option.bind_some]; clear e
  obtain ⟨V, e, hV⟩ := q.win11 hn
  rw [e]; clear e
  obtain ⟨S10, e, q⟩ := q.addl21 hn hV
  rw [e, Option.bind_some]; clear e
  obtain ⟨V, e, hV⟩ := q.win11 hn
  rw [e]; clear e
  obtain ⟨S11, e, q⟩ := q.addr22 hn hV
  rw [e, Option.bind_some]; clear e
  obtain ⟨S12, e, q⟩ := q.mul11 hmul hn hA11 hB11
  rw [e, Option.bind_some]; clear e
  obtain ⟨R, e, q⟩ := q.addr11 hn hU
  rw [e]; clear e
  refine congrArg (fun X : Mat ff => some X.pack) (quad_eq _ _ _ ⟨q.nrows, q.ncols, q.fid⟩ ?_ ?_ ?_ ?_ q.out)
  · rw [q.b11, blk_prod _ _ _ _ _ _ (by omega) (by omega)]
    char2
  · rw [q.b12, blk_prod _ _ _ _ _ _ (by omega) (by omega)]
    char2
  · rw [q.b21, blk_prod _ _ _ _ _ _ (by omega) (by omega)]
    char2
  · rw [q.b22, blk_prod _ _ _ _ _ _ (by omega) (by omega)]
    char2

theorem strassenAddmulStep_pack {mul addmul : Mzed → Mzed → Mzed → Option Mzed} (C A B : Mat ff) {m k n : Nat}
    (hk : degreeToW ff.degree * k % 64 = 0) (hn : degreeToW ff.degree * n % 64 = 0) (hmul : MulSpec mul m k n ff)
    (haddmul : AddmulSpec addmul m k n ff) :
    strassenAddmulStep mul addmul C.pack A.pack B.pack m k n =
      some (C.put 0 0 (C.blk 0 0 (2 * m) (2 * n) + A.blk 0 0 (2 * m) (2 * k) * B.blk 0 0 (2 * k) (2 * n))).pack := by
  have h0 : degreeToW ff.degree * 0 % 64 = 0 := by simp
  unfold strassenAddmulStep
  simp only [window_pack _ _ _ _ _ h0, window_pack _ _ _ _ _ hk, window_pack _ _ _ _ _ hn, pack_ff, pack_fid, pack_nrows, pack_ncols,
    init_pack, Option.bind_eq_bind]
  have hA11 : Tmp (A.window 0 0 m k) (A.blk 0 0 m k) := Tmp.win _ (by omega) (by omega)
  have hA12 : Tmp (A.window 0 k m (2 * k)) (A.blk 0 k m k) := Tmp.win _ (by omega) (by omega)
  have hA21 : Tmp (A.window m 0 (2 * m) k) (A.blk m 0 m k) := Tmp.win _ (by omega) (by omega)
  have hA22 : Tmp (A.window m k (2 * m) (2 * k)) (A.blk m k m k) := Tmp.win _ (by omega) (by omega)
  have hB11 : Tmp (B.window 0 0 k n) (B.blk 0 0 k n) := Tmp.win _ (by omega) (by omega)
  have hB12 : Tmp (B.window 0 n k (2 * n)) (B.blk 0 n k n) := Tmp.win _ (by omega) (by omega)
  have hB21 : Tmp (B.window k 0 (2 * k) n) (B.blk k 0 k n) := Tmp.win _ (by omega) (by omega)
  have hB22 : Tmp (B.window k n (2 * k) (2 * n)) (B.blk k n k n) := Tmp.win _ (by omega) (by omega)
  have hmk : Tmp (⟨m, k, A.fid, fun _ _ => 0⟩ : Mat ff) _ := ⟨rfl, rfl, rfl⟩
  have hkn : Tmp (⟨k, n, A.fid, fun _ _ => 0⟩ : Mat ff) _ := ⟨rfl, rfl, rfl⟩
  have hmn : Tmp (⟨m, n, A.fid, fun _ _ => 0⟩ : Mat ff) _ := ⟨rfl, rfl, rfl⟩
  generalize A.window 0 0 m k = A11 at hA11 ⊢
  generalize A.window 0 k m (2 * k) = A12 at hA12 ⊢
  generalize A.window m 0 (2 * m) k = A21 at hA21 ⊢
  generalize A.window m k (2 * m) (2 * k) = A22 at hA22 ⊢
  generalize B.window 0 0 k n = B11 at hB11 ⊢
  generalize B.window 0 n k (2 * n) = B12 at hB12 ⊢
  generalize B.window k 0 (2 * k) n = B21 at hB21 ⊢
  generalize B.window k n (2 * k) (2 * n) = B22 at hB22 ⊢
  have q : Quad C C (C.blk 0 0 m n) (C.blk 0 n m n) (C.blk m 0 m n) (C.blk m n m n) := ⟨rfl, rfl, rfl, rfl, rfl, rfl, rfl, fun _ _ _ => rfl⟩
  obtain ⟨X1, e, hX1⟩ := Tmp.add hmk hA22 hA21
  rw [e]; clear e
  obtain ⟨T1, e, hT1⟩ := Tmp.add hkn hB22 hB21
  rw [e]; clear e
  obtain ⟨U1, e, hU1⟩ := Tmp.mul hmul hmn hX1 hT1
  rw [e, Option.bind_some]; clear e
  obtain ⟨S1, e, q⟩ := q.addl22 hn hU1
  rw [e, Option.bind_some]; clear e
  obtain ⟨S2, e, q⟩ := q.addl12 hn hU1
  rw [e, Option.bind_some]; clear e
  obtain ⟨U2, e, hU2⟩ := Tmp.mul hmul hU1 hA12 hB21
  rw [e, Option.bind_some]; clear e
  obtain ⟨S3, e, q⟩ := q.addl11 hn hU2
  rw [e, Option.bind_some]; clear e
  obtain ⟨S4, e, q⟩ := q.addmul11 haddmul hn hA11 hB11
  rw [e, Option.bind_some]; clear e
  obtain ⟨X2, e, hX2⟩ := Tmp.add hX1 hX1 hA12
  rw [e]; clear e
  obtain ⟨T2, e, hT2⟩ := Tmp.add hT1 hT1 hB12
  rw [e]; clear e
  obtain ⟨U3, e, hU3⟩ := Tmp.addmul haddmul hU2 hX2 hT2
  rw [e, Option.bind_some]; clear e
  obtain ⟨S5, e, q⟩ := q.addr12 hn hU3
  rw [e, Option.bind_some]; clear e
  obtain ⟨X3, e, hX3⟩ := Tmp.add hX2 hA11 hX2
  rw [e]; clear e
  obtain ⟨S6, e, q⟩ := q.addmul12 haddmul hn hX3 hB12
  rw [e, Option.bind_some]; clear e
  obtain ⟨T3, e, hT3⟩ := Tmp.add hT2 hB11 hT2
  rw [e]; clear e
  obtain ⟨S7, e, q⟩ := q.addmul21 haddmul hn hA21 hT3
  rw [e, Option.bind_some]; clear e
  obtain ⟨X4, e, hX4⟩ := Tmp.add hX3 hA22 hA12
  rw [e]; clear e
  obtain ⟨T4, e, hT4⟩ := Tmp.add hT3 hB22 hB12
  rw [e]; clear e
  obtain ⟨U4, e, hU4⟩ := Tmp.addmul haddmul hU3 hX4 hT4
  rw [e, Option.bind_some]; clear e
  obtain ⟨S8, e, q⟩ := q.addr21 hn hU4
  rw [e, Option.bind_some]; clear e
  obtain ⟨R, e, q⟩ := q.addr22 hn hU4
  rw [e]; clear e
  refine congrArg (fun X : Mat ff => some X.pack) (quad_eq _ _ _ ⟨q.nrows, q.ncols, q.fid⟩ ?_ ?_ ?_ ?_ q.out)
  · rw [q.b11, blk_add_prod _ _ _ _ _ _ (by omega) (by omega)]
    char2
  · rw [q.b12, blk_add_prod _ _ _ _ _ _ (by omega) (by omega)]
    char2
  · rw [q.b21, blk_add_prod _ _ _ _ _ _ (by omega) (by omega)]
    char2
  · rw [q.b22, blk_add_prod _ _ _ _ _ _ (by omega) (by omega)]
    char2
end
end M4rie
