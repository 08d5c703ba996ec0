import Verif.Proofs.WordsKeep
import Verif.Proofs.MzedMat

/-! # An instance of the M4RI functions as sequences of word accesses -/

namespace M4rie
open M4rie.Spec Spec.Code Handle

/-- both functions word by word -/
def stdWordLib : WordLib where
  clear A := forC (fun r => forC (fun j => updC A r j fun v => mzdClear A.nrows (A.w * A.ncols) (fun _ _ => v) r j) A.width) A.nrows
  rowSwap A a b := forC (fun j => .read (A.loc a j) fun va => .read (A.loc b j) fun vb =>
    .write (A.loc a j) (mzdRowSwap (A.w * A.ncols) (fun i _ => if i = a then va else vb) a b a j)
      (.write (A.loc b j) (mzdRowSwap (A.w * A.ncols) (fun i _ => if i = a then va else vb) a b b j) (.done ()))) A.width

variable {A : Handle} {m : Mem}

theorem rs_mapRow {X : Nat → Nat → Word} {r : Nat} (hr : r < A.nrows) (f : Nat → Word → Word) : ∀ n ≤ A.width,
    RowSpec A m X r (forC (fun j => updC A r j (f j)) n) fun row => ((), fun j => if j < n then f j (row j) else row j)
  | 0, _ => (RowSpec.done ()).congr fun row => by simp
  | n + 1, h => (RowSpec.then (rs_mapRow hr f n (by omega)) (rs_updC hr (j := n) (by omega) (f n))).congr fun row => by
      refine Prod.ext rfl ?_
      funext j
      dsimp only
      unfold setWord
      by_cases h1 : j = n
      · subst h1; simp
      · rw [if_neg h1]
        beta_reduce
        by_cases h2 : j < n
        · rw [if_pos h2, if_pos (by omega)]
        · rw [if_neg h2, if_neg (by omega)]

theorem clear_ok (A : Handle) (m : Mem) :
    ((stdWordLib.clear A).alone m).2 = A.put m { A.view m with words := mzdClear A.nrows (A.w * A.ncols) (A.view m).words } := by
  let f : Nat → Nat → Word → Word := fun r j v => mzdClear A.nrows (A.w * A.ncols) (fun _ _ => v) r j
  let F : Nat → Mzed → Mzed := fun r X => { X with words := setRow X.words r fun j => if j < A.width then f r j (X.words r j) else X.words r j }
  have e : Eff A m (stdWordLib.clear A) fun X => forN F A.nrows X := Eff.forC fun r hr X hX =>
    ⟨(rs_mapRow hr (f r) A.width (le_refl _)).eff, hX.withWords _⟩
  have key : ∀ (X : Mzed) n r j, (forN F n X).words r j = if r < n ∧ j < A.width then f r j (X.words r j) else X.words r j := by
    intro X n
    induction n with
    | zero => intro r j; simp [forN]
    | succ n ih =>
      intro r j
      have e0 : (forN F (n + 1) X).words r j = (F n (forN F n X)).words r j := rfl
      rw [e0]
      simp only [F, setRow]
      by_cases h : r = n
      · subst h
        rw [if_pos rfl, ih]
        simp
      · rw [if_neg h, ih]
        have : (r < n ∧ j < A.width) ↔ (r < n + 1 ∧ j < A.width) := by omega
        simp only [this]
  have := (e _ (Hdr.view A m)).1
  rw [put_view] at this
  rw [this]
  show A.putW m _ = A.putW m _
  refine putW_congr fun r hr j hj => ?_
  rw [key, if_pos ⟨hr, hj⟩]
  exact mzdClear_congr rfl

theorem mzdRowSwap_other {nc : Nat} (X : Nat → Nat → Word) {a b r : Nat} (ha : r ≠ a) (hb : r ≠ b) (j : Nat) : mzdRowSwap nc X a b r j = X r j := by
  apply BitVec.eq_of_getLsbD_eq
  intro k hk
  have := bitAt_ofBits (fun i p => if p < nc then (if i = a then bitAt X b p else if i = b then bitAt X a p else bitAt X i p) else bitAt X i p) r (64 * j + k)
  unfold bitAt at this
  rw [show (64 * j + k) / 64 = j by omega, show (64 * j + k) % 64 = k by omega] at this
  unfold mzdRowSwap bitAt
  rw [this, if_neg ha, if_neg hb]
  simp

theorem swap_ok (A : Handle) (a b : Nat) (m : Mem) (ha : a < A.nrows) (hb : b < A.nrows) :
    ((stdWordLib.rowSwap A a b).alone m).2 = A.put m (mzedRowSwap (A.view m) a b) := by
  let g : Nat → Nat → Word → Word → Word := fun r j va vb => mzdRowSwap (A.w * A.ncols) (fun i _ => if i = a then va else vb) a b r j
  let F1 : Nat → Mzed → Nat → Nat → Word := fun j X => setRow X.words a (setWord (X.words a) j (g a j (X.words a j) (X.words b j)))
  let F : Nat → Mzed → Mzed := fun j X => { X with words := setRow (F1 j X) b (setWord (F1 j X b) j (g b j (X.words a j) (X.words b j))) }
  have e : Eff A m (stdWordLib.rowSwap A a b) fun X => forN F A.width X := Eff.forC fun j hj X hX => by
    refine ⟨Prod.ext rfl ?_, hX.withWords _⟩
    show ((A.putW m X.words).set (A.loc a j) (mzdRowSwap (A.w * A.ncols) (fun i _ => if i = a then A.putW m X.words (A.loc a j) else A.putW m X.words (A.loc b j)) a b a j)).set
      (A.loc b j) (mzdRowSwap (A.w * A.ncols) (fun i _ => if i = a then A.putW m X.words (A.loc a j) else A.putW m X.words (A.loc b j)) a b b j) = _
    rw [putW_loc ha hj, putW_loc hb hj, putW_set ha hj, putW_set hb hj]
    rfl
  have hF : ∀ (Y : Mzed) n r j, (F n Y).words r j = if j = n then (if r = b then g b n (Y.words a n) (Y.words b n)
      else if r = a then g a n (Y.words a n) (Y.words b n) else Y.words r j) else Y.words r j := by
    intro Y n r j
    simp only [F, F1, setRow, setWord]
    by_cases hj : j = n
    · simp only [if_pos hj]
    · simp only [if_neg hj]
      by_cases h1 : r = b
      · subst h1
        by_cases h2 : r = a
        · subst h2; simp
        · simp [h2]
      · simp only [if_neg h1]
        by_cases h2 : r = a
        · subst h2; simp
        · simp [h2]
  have key : ∀ (X : Mzed) n r j, (forN F n X).words r j =
      if j < n then (if r = b then g b j (X.words a j) (X.words b j) else if r = a then g a j (X.words a j) (X.words b j) else X.words r j) else X.words r j := by
    intro X n
    induction n with
    | zero => intro r j; simp [forN]
    | succ n ih =>
      intro r j
      have e0 : (forN F (n + 1) X).words r j = (F n (forN F n X)).words r j := rfl
      rw [e0, hF, ih a n, ih b n, ih r j, if_neg (Nat.lt_irrefl n), if_neg (Nat.lt_irrefl n)]
      by_cases hjn : j = n
      · subst hjn
        simp
      · have : (j < n + 1) ↔ j < n := by omega
        simp only [if_neg hjn, this]
  have := (e _ (Hdr.view A m)).1
  rw [put_view] at this
  rw [this]
  show A.putW m _ = A.putW m (mzdRowSwap (A.w * A.ncols) (A.view m).words a b)
  refine putW_congr fun r hr j hj => ?_
  rw [key, if_pos hj]
  have hb' : (if b = a then (A.view m).words a j else (A.view m).words b j) = (A.view m).words b j := by
    split
    · next h => rw [h]
    · rfl
  by_cases h1 : r = b
  · rw [if_pos h1, h1]
    exact mzdRowSwap_congr hb' (if_pos rfl) hb'
  · rw [if_neg h1]
    by_cases h2 : r = a
    · rw [if_pos h2, h2]
      exact mzdRowSwap_congr (if_pos rfl) (if_pos rfl) hb'
    · rw [if_neg h2, mzdRowSwap_other _ h2 h1]

theorem stdWordLib_ok : stdWordLib.OK where
  clearKeeps A := keeps_forC fun r hr => keeps_forC fun j hj => keeps_updC (loc_mem hr hj) (loc_mem hr hj) _
  clear := clear_ok
  swapKeeps A a b _ _ := keeps_forC fun j hj => ⟨Or.inl (loc_mem_row hj), fun _ => ⟨Or.inr (loc_mem_row hj), fun _ =>
    ⟨Or.inl (loc_mem_row hj), Or.inr (loc_mem_row hj), trivial⟩⟩⟩
  swap := swap_ok

end M4rie
