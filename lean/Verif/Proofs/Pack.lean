import Verif.Props.Packed
import Verif.Proofs.LinAlg

/-!
# Packing

`Mat ff` is a matrix over GF(2^e) as mathematics (dimensions and entries at all positions),
`pack` the packed matrix storing it.  Every packed operation commutes with `pack`, so proofs about
packed algorithms reduce to `Mat`.
-/

namespace M4rie
open M4rie.Spec

/-- a matrix over the field, with entries at *all* positions (also those outside `nrows × ncols`) -/
@[ext] structure Mat (ff : Gf2e) where
  nrows : Nat
  ncols : Nat
  fid : Nat
  e : Nat → Nat → Elem ff

variable {ff : Gf2e} [IsField ff]

/-- the packed matrix with given contents -/
def Mat.pack (X : Mat ff) : Mzed :=
  ⟨ff, X.fid, X.nrows, X.ncols, degreeToW ff.degree,
    ofBits fun i p => (X.e i (p / degreeToW ff.degree)).1.getLsbD (p % degreeToW ff.degree)⟩

theorem okW_ff : OkW (degreeToW ff.degree) :=
  (degreeToW_ok (IsField.two_le (ff := ff)) (Fact.out : FFOK ff).min.e16).1

theorem le_w : ff.degree ≤ degreeToW ff.degree :=
  (degreeToW_ok (IsField.two_le (ff := ff)) (Fact.out : FFOK ff).min.e16).2

theorem pack_rep (X : Mat ff) : Rep X.pack X.e := by
  refine ⟨rfl, rfl, fun i j => ?_⟩
  have hok := okW_ff (ff := ff)
  have hp := hok.pos
  refine entry_ext hok ?_ (lt_of_lt_of_le (X.e i j).2 (Nat.pow_le_pow_right (by norm_num) le_w))
  intro q hq
  unfold Mat.pack
  simp only
  rw [bitAt_ofBits]
  have e1 : (degreeToW ff.degree * j + q) / degreeToW ff.degree = j := by
    rw [Nat.mul_add_div hp, Nat.div_eq_of_lt hq, Nat.add_zero]
  have e2 : (degreeToW ff.degree * j + q) % degreeToW ff.degree = q := by
    rw [Nat.mul_add_mod, Nat.mod_eq_of_lt hq]
  rw [e1, e2]

@[simp] theorem pack_ff (X : Mat ff) : X.pack.ff = ff := rfl
@[simp] theorem pack_fid (X : Mat ff) : X.pack.fid = X.fid := rfl
@[simp] theorem pack_nrows (X : Mat ff) : X.pack.nrows = X.nrows := rfl
@[simp] theorem pack_ncols (X : Mat ff) : X.pack.ncols = X.ncols := rfl
@[simp] theorem pack_w (X : Mat ff) : X.pack.w = degreeToW ff.degree := rfl

theorem Rep.eq_pack' {A : Mzed} {M : Nat → Nat → Elem ff} (h : Rep A M) : A = Mat.pack ⟨A.nrows, A.ncols, A.fid, M⟩ := by
  have hw := Props.C12_entries_determine h (pack_rep ⟨A.nrows, A.ncols, A.fid, M⟩)
  have h1 := h.ffEq
  have h2 := h.wEq
  cases A
  simp only at h1 h2 hw
  subst h1 h2
  simp only [Mat.pack, Mzed.mk.injEq, true_and]
  exact hw

theorem Rep.eq_pack {A : Mzed} {M : Nat → Nat → Elem ff} (h : Rep A M) {B : Mzed} (hd : SameDim A B) :
    A = Mat.pack ⟨B.nrows, B.ncols, B.fid, M⟩ := by
  rw [← hd.nrows, ← hd.ncols, ← hd.fid]; exact h.eq_pack'

namespace Mat

/-! ### operations on entries -/

def set (X : Mat ff) (r c : Nat) (x : Elem ff) : Mat ff :=
  { X with e := fun i j => if i = r ∧ j = c then x else X.e i j }
def addAt (X : Mat ff) (r c : Nat) (x : Elem ff) : Mat ff :=
  { X with e := fun i j => if i = r ∧ j = c then X.e i j + x else X.e i j }
def rescale (X : Mat ff) (r s : Nat) (x : Elem ff) : Mat ff :=
  { X with e := fun i j => if i = r ∧ s ≤ j ∧ j < X.ncols then x * X.e i j else X.e i j }
def addMul (X : Mat ff) (ar : Nat) (Y : Mat ff) (br : Nat) (x : Elem ff) (s : Nat) : Mat ff :=
  { X with e := fun i j => if i = ar ∧ s ≤ j ∧ j < X.ncols then X.e i j + x * Y.e br j else X.e i j }
def swapRows (X : Mat ff) (a b : Nat) : Mat ff :=
  { X with e := fun i j => if j < X.ncols then X.e (Equiv.swap a b i) j else X.e i j }
def swapCols (X : Mat ff) (a b : Nat) : Mat ff :=
  { X with e := fun i j => if i < X.nrows then X.e i (Equiv.swap a b j) else X.e i j }
def swapColsIn (X : Mat ff) (a b start stop : Nat) : Mat ff :=
  { X with e := fun i j => if start ≤ i ∧ i < stop then X.e i (Equiv.swap a b j) else X.e i j }
def scalar (X : Mat ff) (x : Elem ff) : Mat ff :=
  { X with e := fun i j => if i < X.nrows ∧ j < X.ncols then (if i = j then x else 0) else X.e i j }
def addM (C X Y : Mat ff) : Mat ff :=
  { C with e := fun i j => if i < X.nrows ∧ j < X.ncols then X.e i j + Y.e i j else C.e i j }
def copyM (C X : Mat ff) : Mat ff :=
  { C with e := fun i j => if i < X.nrows ∧ j < X.ncols then X.e i j else C.e i j }
def addMulM (C X Y : Mat ff) : Mat ff :=
  { C with e := fun i j => if i < C.nrows ∧ j < C.ncols then C.e i j + ∑ k ∈ Finset.range X.ncols, X.e i k * Y.e k j else C.e i j }
def mulM (C X Y : Mat ff) : Mat ff :=
  { C with e := fun i j => if i < C.nrows ∧ j < C.ncols then ∑ k ∈ Finset.range X.ncols, X.e i k * Y.e k j else C.e i j }
def window (X : Mat ff) (lr lc hr hc : Nat) : Mat ff :=
  ⟨hr - lr, hc - lc, X.fid, fun i j => X.e (lr + i) (lc + j)⟩
def unwindow (X : Mat ff) (lr lc : Nat) (W : Mat ff) : Mat ff :=
  { X with e := fun i j => if lr ≤ i ∧ lc ≤ j then W.e (i - lr) (j - lc) else X.e i j }

end Mat

theorem inv_pack (x : Elem ff) : gf2eInv ff x.1 = (x⁻¹).1 := rfl

@[simp] theorem read_pack (X : Mat ff) (i j : Nat) : mzedReadElem X.pack i j = (X.e i j).1 := (pack_rep X).read i j

theorem write_pack (X : Mat ff) (r c : Nat) (x : Elem ff) : mzedWriteElem X.pack r c x.1 = (X.set r c x).pack :=
  ((pack_rep X).writeElem r c x).eq_pack ⟨rfl, rfl, rfl⟩

theorem add_pack (X : Mat ff) (r c : Nat) (x : Elem ff) : mzedAddElem X.pack r c x.1 = (X.addAt r c x).pack :=
  ((pack_rep X).addElem r c x).eq_pack ⟨rfl, rfl, rfl⟩

theorem rescale_pack (X : Mat ff) (r s : Nat) (hs : s < X.ncols) (x : Elem ff) :
    mzedRescaleRow X.pack r s x.1 = (X.rescale r s x).pack :=
  ((pack_rep X).rescaleRow r s hs x).eq_pack (rescaleRow_dim _ (okW_ff (ff := ff)) r s x.1)

theorem addMul_pack (X Y : Mat ff) (ar br s : Nat) (hs : s < X.ncols) (x : Elem ff) :
    mzedAddMultipleOfRow X.pack ar Y.pack br x.1 s = (X.addMul ar Y br x s).pack :=
  ((pack_rep X).addMultipleOfRow (pack_rep Y) ar br s hs x).eq_pack
    (addMultipleOfRow_dim _ (okW_ff (ff := ff)) ar _ br x.1 s)

theorem swapRows_pack (X : Mat ff) (a b : Nat) : mzedRowSwap X.pack a b = (X.swapRows a b).pack :=
  (Props.C16_row_swap (pack_rep X) a b).eq_pack ⟨rfl, rfl, rfl⟩

theorem swapCols_pack (X : Mat ff) (a b : Nat) : mzedColSwap X.pack a b = (X.swapCols a b).pack :=
  (Props.C16_col_swap (pack_rep X) a b).eq_pack (Props.colSwap_dim _ a b)

theorem colSwapInRows_dim (A : Mzed) (a b start stop : Nat) : SameDim (mzedColSwapInRows A a b start stop) A := by
  unfold mzedColSwapInRows; rw [colSwap_words]; exact ⟨rfl, rfl, rfl⟩

theorem swapColsIn_pack (X : Mat ff) (a b start stop : Nat) :
    mzedColSwapInRows X.pack a b start stop = (X.swapColsIn a b start stop).pack :=
  (Props.C16_col_swap_in_rows (pack_rep X) a b start stop).eq_pack (colSwapInRows_dim _ a b start stop)

theorem setUi_pack (X : Mat ff) (x : Elem ff) : mzedSetUi X.pack x.1 = (X.scalar x).pack :=
  ((pack_rep X).setUi x).1.eq_pack ((pack_rep X).setUi x).2

theorem addM_pack (C X Y : Mat ff) (h1 : Y.nrows = X.nrows) (h2 : Y.ncols = X.ncols) (h3 : Y.fid = X.fid)
    (h4 : C.nrows = X.nrows) (h5 : C.ncols = X.ncols) (h6 : C.fid = X.fid) :
    mzedAdd? C.pack X.pack Y.pack = some (C.addM X Y).pack := by
  obtain ⟨R, h, hd, hr⟩ := Props.C17_add (pack_rep X) (pack_rep Y) (pack_rep C) ⟨h1, h2, h3⟩ ⟨h4, h5, h6⟩
  rw [h]
  congr 1
  have := hr.eq_pack hd
  rw [this]
  unfold Mat.addM
  congr 2 <;> simp [h4, h5, h6]

theorem copyM_pack (C X : Mat ff) (h4 : C.nrows = X.nrows) (h5 : C.ncols = X.ncols) (h6 : C.fid = X.fid) :
    mzedCopy? C.pack X.pack = some (C.copyM X).pack := by
  obtain ⟨R, h, hd, hr⟩ := Props.copy_rep (pack_rep X) (pack_rep C) ⟨h4, h5, h6⟩
  rw [h]
  congr 1
  have := hr.eq_pack hd
  rw [this]
  unfold Mat.copyM
  congr 2 <;> simp [h4, h5, h6]

theorem mulNaiveAcc_pack (C X Y : Mat ff) : mzedMulNaiveAcc C.pack X.pack Y.pack = (C.addMulM X Y).pack :=
  ((pack_rep C).mulNaiveAcc (pack_rep X) (pack_rep Y)).1.eq_pack ((pack_rep C).mulNaiveAcc (pack_rep X) (pack_rep Y)).2

theorem window_pack (X : Mat ff) (lr lc hr hc : Nat) (h : degreeToW ff.degree * lc % 64 = 0) :
    mzedWindow X.pack lr lc hr hc = (X.window lr lc hr hc).pack :=
  (Props.C43_window (pack_rep X) lr lc hr hc h).eq_pack (B := mzedWindow X.pack lr lc hr hc) ⟨rfl, rfl, rfl⟩

theorem windowWrite_pack (X W : Mat ff) (lr lc : Nat) (h : degreeToW ff.degree * lc % 64 = 0) :
    { X.pack with words := mzdWindowWrite X.pack.words lr (degreeToW ff.degree * lc) W.pack.words } =
      (X.unwindow lr lc W).pack :=
  (Props.C43_window_write (pack_rep X) (pack_rep W) lr lc h).eq_pack ⟨rfl, rfl, rfl⟩

theorem init_pack (fid m n : Nat) : mzedInit ff fid m n = Mat.pack (ff := ff) ⟨m, n, fid, fun _ _ => 0⟩ := by
  have : Rep (mzedInit ff fid m n) (fun _ _ => (0 : Elem ff)) := by
    refine ⟨rfl, rfl, fun i j => ?_⟩
    simp [mzedInit, entryOf, laneVal]
  exact this.eq_pack ⟨rfl, rfl, rfl⟩

end M4rie
