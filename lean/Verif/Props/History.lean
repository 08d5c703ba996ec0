import Verif.Model.History
import Verif.Props.Entry
import Verif.Props.Kara

/-!
# Property C58: histories

Every sequence of calls on any number of matrices, in both representations, behaves like the same sequence of operations on Mathlib matrices.
-/

namespace M4rie.Props
open M4rie M4rie.Spec

variable {lib : Lib}

/-- the packed matrix `A` stores `X` -/
def HoldsP (lib : Lib) (A : Mzed) {m n : Nat} (X : Matrix (Fin m) (Fin n) (Elem lib.ff)) : Prop :=
  A.fid = lib.fid ∧ A.nrows = m ∧ A.ncols = n ∧ ∃ M : Nat → Nat → Elem lib.ff, Rep A M ∧ ∀ i j, M i.1 j.1 = X i j

/-- the sliced matrix `A` stores `X` -/
def HoldsS (lib : Lib) (A : Slice) {m n : Nat} (X : Matrix (Fin m) (Fin n) (Elem lib.ff)) : Prop :=
  A.fid = lib.fid ∧ A.nrows = m ∧ A.ncols = n ∧ ∃ M : Nat → Nat → Elem lib.ff, SRep A M ∧ ∀ i j, M i.1 j.1 = X i j

def Holds (lib : Lib) : Obj → AMat (Elem lib.ff) → Prop
  | .packed A, ⟨false, _, _, X⟩ => HoldsP lib A X
  | .sliced A, ⟨true, _, _, X⟩ => HoldsS lib A X
  | _, _ => False

/-- the variables of the program store the matrices of the abstract state -/
def Stores (lib : Lib) (c : Pool) (s : AState (Elem lib.ff)) : Prop :=
  ∀ k, match c k, s k with
    | none, none => True
    | some o, some X => Holds lib o X
    | _, _ => False

theorem Stores.packed {c : Pool} {s : AState (Elem lib.ff)} (h : Stores lib c s) {d m n : Nat} {X : Matrix (Fin m) (Fin n) (Elem lib.ff)}
    (hd : s d = some ⟨false, m, n, X⟩) : ∃ A, c d = some (.packed A) ∧ HoldsP lib A X := by
  have := h d
  rw [hd] at this
  cases hc : c d with
  | none => rw [hc] at this; exact this.elim
  | some o =>
    rw [hc] at this
    cases o with
    | packed A => exact ⟨A, rfl, this⟩
    | sliced A => exact this.elim

theorem Stores.sliced {c : Pool} {s : AState (Elem lib.ff)} (h : Stores lib c s) {d m n : Nat} {X : Matrix (Fin m) (Fin n) (Elem lib.ff)}
    (hd : s d = some ⟨true, m, n, X⟩) : ∃ A, c d = some (.sliced A) ∧ HoldsS lib A X := by
  have := h d
  rw [hd] at this
  cases hc : c d with
  | none => rw [hc] at this; exact this.elim
  | some o =>
    rw [hc] at this
    cases o with
    | packed A => exact this.elim
    | sliced A => exact ⟨A, rfl, this⟩

theorem Stores.set {c : Pool} {s : AState (Elem lib.ff)} (h : Stores lib c s) (d : Nat) {o : Obj} {X : AMat (Elem lib.ff)} (ho : Holds lib o X) :
    Stores lib (c.set d (some o)) (s.set d (some X)) := by
  intro k
  unfold Pool.set AState.set
  by_cases hk : k = d
  · simp only [hk, if_true]; exact ho
  · simp only [hk, if_false]; exact h k

theorem Stores.unset {c : Pool} {s : AState (Elem lib.ff)} (h : Stores lib c s) (d : Nat) :
    Stores lib (c.set d none) (s.set d none) := by
  intro k
  unfold Pool.set AState.set
  by_cases hk : k = d
  · simp only [hk, if_true]
  · simp only [hk, if_false]; exact h k

/-- `o'` has the dimensions of `o` and differs from it only inside the matrix: what lies outside (the padding bits; if `o` is a window, the rest of the
matrix it belongs to) has not been touched -/
def Frame (lib : Lib) : Obj → Obj → Prop
  | .packed A, .packed B => SameDim B A ∧ ∀ M N : Nat → Nat → Elem lib.ff, Rep A M → Rep B N → ∀ i j, ¬ (i < A.nrows ∧ j < A.ncols) → N i j = M i j
  | .sliced A, .sliced B => SSameDim B A ∧ ∀ M N : Nat → Nat → Elem lib.ff, SRep A M → SRep B N → ∀ i j, ¬ (i < A.nrows ∧ j < A.ncols) → N i j = M i j
  | _, _ => False

def Frames (lib : Lib) (c c' : Pool) : Prop := ∀ k o o', c k = some o → c' k = some o' → Frame lib o o'

/-- the contracts of M4RI -/
structure LibOk (lib : Lib) : Prop where
  mul : lib.mulEnv.Ok lib.ff.degree
  compress : CompressOk lib.pleEnv.compress
  cb : lib.pleEnv.cb.Ok lib.ff.degree

/-- the sizes for which `mzed_mul_scalar` reads out of bounds (C18) -/
def badScalar (lib : Lib) (m n : Nat) : Prop :=
  (lib.ff.degree = 3 ∨ lib.ff.degree = 5 ∨ lib.ff.degree = 6 ∨ lib.ff.degree = 7) ∧ 2 ^ 17 ≤ m * n

section convert
variable {K : Type} [Field K] {m n k : Nat}

theorem mul_of_fn {MA MB : Nat → Nat → K} {X : Matrix (Fin m) (Fin k) K} {Y : Matrix (Fin k) (Fin n) K} (hX : ∀ i j, MA i.1 j.1 = X i j)
    (hY : ∀ i j, MB i.1 j.1 = Y i j) (i : Fin m) (j : Fin n) : ∑ t ∈ Finset.range k, MA i t * MB t j = (X * Y) i j := by
  rw [Matrix.mul_apply, Finset.sum_range]
  exact Finset.sum_congr rfl fun t _ => by rw [hX, hY]

theorem rowSpan_of_fn {M : Nat → Nat → K} {X : Matrix (Fin m) (Fin n) K} (hX : ∀ i j, M i.1 j.1 = X i j) :
    rowSpan m n M = Submodule.span K (Set.range X.row) := by
  unfold rowSpan
  congr 2
  funext i j
  exact hX i j

theorem rank_of_fn {M : Nat → Nat → K} {X : Matrix (Fin m) (Fin n) K} (hX : ∀ i j, M i.1 j.1 = X i j) : rank m n M = X.rank := by
  unfold rank
  rw [rowSpan_of_fn hX, Matrix.rank_eq_finrank_span_row]

theorem ofFin_eq {M : Nat → Nat → K} {i j : Nat} (hi : i < m) (hj : j < n) :
    ofFin (fun (a : Fin m) (b : Fin n) => M a b) i j = M i j := by
  unfold ofFin
  rw [dif_pos ⟨hi, hj⟩]

theorem isEchelon_of_fn {M : Nat → Nat → K} {r : Nat} {piv : Nat → Nat} (h : IsEchelon m n r M piv) :
    IsEchelon m n r (ofFin (fun (a : Fin m) (b : Fin n) => M a b)) piv where
  le := h.le
  lt := h.lt
  mono := h.mono
  one i hi := by rw [ofFin_eq (lt_of_lt_of_le hi h.le) (h.lt i hi)]; exact h.one i hi
  left i hi j hj := by rw [ofFin_eq (lt_of_lt_of_le hi h.le) (hj.trans (h.lt i hi))]; exact h.left i hi j hj
  zero i hi hm j hj := by rw [ofFin_eq hm hj]; exact h.zero i hi hm j hj

theorem isRref_of_fn {M : Nat → Nat → K} {r : Nat} {piv : Nat → Nat} (h : IsRref m n r M piv) :
    IsRref m n r (ofFin (fun (a : Fin m) (b : Fin n) => M a b)) piv where
  toIsEchelon := isEchelon_of_fn h.toIsEchelon
  above i hi l hl hne := by rw [ofFin_eq hl (h.lt i hi)]; exact h.above i hi l hl hne

theorem swap_fin (a b i : Fin m) : Equiv.swap a.1 b.1 i.1 = (Equiv.swap a b i).1 := by
  rw [Equiv.swap_apply_def, Equiv.swap_apply_def]
  by_cases h1 : i = a
  · simp [h1]
  · by_cases h2 : i = b
    · subst h2
      simp only [h1, if_false, if_true]
      rw [if_neg (fun h => h1 (Fin.ext h))]
    · rw [if_neg (fun h => h1 (Fin.ext h)), if_neg (fun h => h2 (Fin.ext h)), if_neg h1, if_neg h2]

theorem swap_out {a b : Fin m} {i : Nat} (h : m ≤ i) : Equiv.swap a.1 b.1 i = i :=
  Equiv.swap_apply_of_ne_of_ne (by omega) (by omega)

theorem lower_det {L : Matrix (Fin m) (Fin m) K} (h : ∀ i, L i i ≠ 0) : IsUnit (lower L).det := by
  have : (lower L).det = ∏ i, lower L i i := Matrix.det_of_lowerTriangular _ (fun i j hij => by
    unfold lower
    exact if_neg (by simpa using hij))
  rw [this, isUnit_iff_ne_zero, Finset.prod_ne_zero_iff]
  intro i _
  unfold lower
  rw [if_pos le_rfl]
  exact h i

theorem upper_det {L : Matrix (Fin m) (Fin m) K} (h : ∀ i, L i i ≠ 0) : IsUnit (upper L).det := by
  have : (upper L).det = ∏ i, upper L i i := Matrix.det_of_upperTriangular (fun i j hij => by
    unfold upper
    exact if_neg (by simpa using hij))
  rw [this, isUnit_iff_ne_zero, Finset.prod_ne_zero_iff]
  intro i _
  unfold upper
  rw [if_pos le_rfl]
  exact h i

theorem lower_solution {L X B : Nat → Nat → K} {L' : Matrix (Fin m) (Fin m) K} {B' : Matrix (Fin m) (Fin n) K} (hL : ∀ i j, L i.1 j.1 = L' i j)
    (hB : ∀ i j, B i.1 j.1 = B' i j) (hd : ∀ i, L' i i ≠ 0) (h : SolvesLower m n L X B) (i : Fin m) (j : Fin n) :
    X i j = ((lower L')⁻¹ * B') i j := by
  have key : lower L' * (Matrix.of fun (a : Fin m) (b : Fin n) => X a b) = B' := by
    ext a b
    rw [Matrix.mul_apply, ← hB, ← h a b a.2 b.2]
    have : ∀ t, t < m → (if t < a.1 + 1 then L a t * X t b else 0) = (if h : t < m then lower L' a ⟨t, h⟩ * X t b else 0) := by
      intro t ht
      rw [dif_pos ht]
      unfold lower
      by_cases hta : t ≤ a.1
      · rw [if_pos (by omega), if_pos (by exact hta), ← hL]
      · rw [if_neg (by omega), if_neg (by exact hta), zero_mul]
    have e : Finset.range (a.1 + 1) = (Finset.range m).filter (fun t => t < a.1 + 1) := by
      ext t; simp only [Finset.mem_range, Finset.mem_filter]; have := a.2; omega
    rw [e, Finset.sum_filter, Finset.sum_congr rfl (fun t ht => this t (Finset.mem_range.1 ht)), Finset.sum_range]
    exact Finset.sum_congr rfl fun t _ => by rw [dif_pos t.2]; rfl
  rw [← key, ← Matrix.mul_assoc, Matrix.nonsing_inv_mul _ (lower_det hd), Matrix.one_mul]; rfl

theorem upper_solution {L X B : Nat → Nat → K} {L' : Matrix (Fin m) (Fin m) K} {B' : Matrix (Fin m) (Fin n) K} (hL : ∀ i j, L i.1 j.1 = L' i j)
    (hB : ∀ i j, B i.1 j.1 = B' i j) (hd : ∀ i, L' i i ≠ 0) (h : SolvesUpper m n L X B) (i : Fin m) (j : Fin n) :
    X i j = ((upper L')⁻¹ * B') i j := by
  have key : upper L' * (Matrix.of fun (a : Fin m) (b : Fin n) => X a b) = B' := by
    ext a b
    rw [Matrix.mul_apply, ← hB, ← h a b a.2 b.2]
    have : ∀ t, t < m → (if a.1 ≤ t then L a t * X t b else 0) = (if h : t < m then upper L' a ⟨t, h⟩ * X t b else 0) := by
      intro t ht
      rw [dif_pos ht]
      unfold upper
      by_cases hta : a.1 ≤ t
      · rw [if_pos hta, if_pos (by exact hta), ← hL]
      · rw [if_neg hta, if_neg (by exact hta), zero_mul]
    have e : Finset.Ico a.1 m = (Finset.range m).filter (fun t => a.1 ≤ t) := by
      ext t; simp only [Finset.mem_Ico, Finset.mem_range, Finset.mem_filter]; omega
    rw [e, Finset.sum_filter, Finset.sum_congr rfl (fun t ht => this t (Finset.mem_range.1 ht)), Finset.sum_range]
    exact Finset.sum_congr rfl fun t _ => by rw [dif_pos t.2]; rfl
  rw [← key, ← Matrix.mul_assoc, Matrix.nonsing_inv_mul _ (upper_det hd), Matrix.one_mul]; rfl

end convert


variable [IsField lib.ff]

theorem HoldsP.of {A R : Mzed} {m n : Nat} {X Y : Matrix (Fin m) (Fin n) (Elem lib.ff)} {N : Nat → Nat → Elem lib.ff} (h : HoldsP lib A X)
    (hd : SameDim R A) (hR : Rep R N) (hN : ∀ (i : Fin m) (j : Fin n), N i j = Y i j) : HoldsP lib R Y :=
  ⟨hd.fid.trans h.1, hd.nrows.trans h.2.1, hd.ncols.trans h.2.2.1, N, hR, hN⟩

theorem HoldsS.of {A R : Slice} {m n : Nat} {X Y : Matrix (Fin m) (Fin n) (Elem lib.ff)} {N : Nat → Nat → Elem lib.ff} (h : HoldsS lib A X)
    (hd : SSameDim R A) (hR : SRep R N) (hN : ∀ (i : Fin m) (j : Fin n), N i j = Y i j) : HoldsS lib R Y :=
  ⟨hd.fid.trans h.1, hd.nrows.trans h.2.1, hd.ncols.trans h.2.2.1, N, hR, hN⟩

theorem elemOf_val (x : Elem lib.ff) : elemOf lib.ff x.1 = some x := by
  unfold elemOf
  rw [dif_pos x.2]; rfl

section step
variable {c : Pool} {s : AState (Elem lib.ff)}

theorem Frame.refl (o : Obj) : Frame lib o o := by
  cases o with
  | packed A => exact ⟨⟨rfl, rfl, rfl⟩, fun M N hM hN i j _ => by rw [hM.unique hN]⟩
  | sliced A => exact ⟨⟨rfl, rfl, rfl⟩, fun M N hM hN i j _ => by rw [hM.unique hN]⟩

theorem Frames.refl (c : Pool) : Frames lib c c := fun k o o' h h' => by
  rw [h] at h'; cases h'; exact Frame.refl o

/-- what a step has to establish -/
def StepOk (lib : Lib) [IsField lib.ff] (c : Pool) (s : AState (Elem lib.ff)) (op : Op (Elem lib.ff)) : Prop :=
  ∃ c' out s', call lib c op = some (c', out) ∧ Allowed (badScalar lib) s op out s' ∧ Stores lib c' s' ∧ Frames lib c c'

theorem Stores.none {c : Pool} {s : AState (Elem lib.ff)} (h : Stores lib c s) {d : Nat} (hd : s d = none) : c d = none := by
  have := h d
  rw [hd] at this
  cases hc : c d with
  | none => rfl
  | some o => rw [hc] at this; exact this.elim

theorem StepOk.put {op : Op (Elem lib.ff)} {d : Nat} {o : Obj} {X : AMat (Elem lib.ff)} {out : Out (Elem lib.ff)} (h : Stores lib c s)
    (hcall : call lib c op = some (c.set d (some o), out)) (hal : Allowed (badScalar lib) s op out (s.set d (some X))) (ho : Holds lib o X)
    (hf : ∀ o0, c d = some o0 → Frame lib o0 o) : StepOk lib c s op :=
  ⟨_, _, _, hcall, hal, h.set d ho, fun k o0 o1 h0 h1 => by
    unfold Pool.set at h1
    by_cases hk : k = d
    · rw [if_pos hk] at h1
      cases h1
      exact hf o0 (hk ▸ h0)
    · rw [if_neg hk, h0] at h1
      cases h1
      exact Frame.refl o0⟩

theorem StepOk.new {op : Op (Elem lib.ff)} {d : Nat} {o : Obj} {X : AMat (Elem lib.ff)} {out : Out (Elem lib.ff)} (h : Stores lib c s)
    (hd : s d = none) (hcall : call lib c op = some (c.set d (some o), out)) (hal : Allowed (badScalar lib) s op out (s.set d (some X)))
    (ho : Holds lib o X) : StepOk lib c s op := StepOk.put h hcall hal ho fun o0 h0 => by rw [h.none hd] at h0; cases h0

theorem StepOk.inP {op : Op (Elem lib.ff)} {d m n : Nat} {A R : Mzed} {X Y : Matrix (Fin m) (Fin n) (Elem lib.ff)} {out : Out (Elem lib.ff)}
    {M N : Nat → Nat → Elem lib.ff} (h : Stores lib c s) (e : c d = some (.packed A)) (H : HoldsP lib A X) (hM : Rep A M)
    (hcall : call lib c op = some (c.set d (some (.packed R)), out))
    (hal : Allowed (badScalar lib) s op out (s.set d (some ⟨false, m, n, Y⟩))) (hd : SameDim R A) (hR : Rep R N)
    (hN : ∀ (i : Fin m) (j : Fin n), N i j = Y i j) (hf : ∀ i j, ¬ (i < A.nrows ∧ j < A.ncols) → N i j = M i j) :
    StepOk lib c s op :=
  StepOk.put h hcall hal (HoldsP.of H hd hR hN : HoldsP lib R Y) fun o0 h0 => by
    rw [e] at h0
    cases h0
    exact ⟨hd, fun M' N' hM' hN' => by rw [hM'.unique hM, hN'.unique hR]; exact hf⟩

theorem StepOk.inS {op : Op (Elem lib.ff)} {d m n : Nat} {A R : Slice} {X Y : Matrix (Fin m) (Fin n) (Elem lib.ff)} {out : Out (Elem lib.ff)}
    {M N : Nat → Nat → Elem lib.ff} (h : Stores lib c s) (e : c d = some (.sliced A)) (H : HoldsS lib A X) (hM : SRep A M)
    (hcall : call lib c op = some (c.set d (some (.sliced R)), out))
    (hal : Allowed (badScalar lib) s op out (s.set d (some ⟨true, m, n, Y⟩))) (hd : SSameDim R A) (hR : SRep R N)
    (hN : ∀ (i : Fin m) (j : Fin n), N i j = Y i j) (hf : ∀ i j, ¬ (i < A.nrows ∧ j < A.ncols) → N i j = M i j) :
    StepOk lib c s op :=
  StepOk.put h hcall hal (HoldsS.of H hd hR hN : HoldsS lib R Y) fun o0 h0 => by
    rw [e] at h0
    cases h0
    exact ⟨hd, fun M' N' hM' hN' => by rw [hM'.unique hM, hN'.unique hR]; exact hf⟩

theorem StepOk.putP {op : Op (Elem lib.ff)} {d m n : Nat} {R : Mzed} {Y : Matrix (Fin m) (Fin n) (Elem lib.ff)} {out : Out (Elem lib.ff)}
    (h : Stores lib c s) (hd : s d = none) (hcall : call lib c op = some (c.set d (some (.packed R)), out))
    (hal : Allowed (badScalar lib) s op out (s.set d (some ⟨false, m, n, Y⟩))) (ho : HoldsP lib R Y) :
    StepOk lib c s op := StepOk.new h hd hcall hal ho

theorem StepOk.putS {op : Op (Elem lib.ff)} {d m n : Nat} {R : Slice} {Y : Matrix (Fin m) (Fin n) (Elem lib.ff)} {out : Out (Elem lib.ff)}
    (h : Stores lib c s) (hd : s d = none) (hcall : call lib c op = some (c.set d (some (.sliced R)), out))
    (hal : Allowed (badScalar lib) s op out (s.set d (some ⟨true, m, n, Y⟩))) (ho : HoldsS lib R Y) :
    StepOk lib c s op := StepOk.new h hd hcall hal ho

theorem SameDim.of_holds {A B R : Mzed} {m n : Nat} {X Y : Matrix (Fin m) (Fin n) (Elem lib.ff)} (hA : HoldsP lib A X) (hB : HoldsP lib B Y)
    (h : SameDim R B) : SameDim R A :=
  ⟨h.nrows.trans (hB.2.1.trans hA.2.1.symm), h.ncols.trans (hB.2.2.1.trans hA.2.2.1.symm), h.fid.trans (hB.1.trans hA.1.symm)⟩

theorem step_init (h : Stores lib c s) (t : Bool) (d m n : Nat) (hd : s d = none) : StepOk lib c s (.init t d m n) := by
  cases t with
  | false =>
    exact StepOk.new h hd rfl (.init false d m n hd) (⟨rfl, rfl, rfl, _, rep_init .., fun _ _ => rfl⟩ : HoldsP lib _ _)
  | true =>
    refine StepOk.new h hd rfl (.init true d m n hd) ?_
    show HoldsS lib _ _
    rw [sliceInit_spack]
    exact ⟨rfl, rfl, rfl, _, spack_rep _, fun _ _ => rfl⟩

theorem step_free (h : Stores lib c s) (d : Nat) {X} (hd : s d = some X) : StepOk lib c s (.free d) :=
  ⟨_, _, _, rfl, .free d hd, h.unset d, fun k o0 o1 h0 h1 => by
    unfold Pool.set at h1
    by_cases hk : k = d
    · rw [if_pos hk] at h1; cases h1
    · rw [if_neg hk, h0] at h1; cases h1; exact Frame.refl o0⟩

section elems
variable {d m n : Nat} {t : Bool} {X : Matrix (Fin m) (Fin n) (Elem lib.ff)}

theorem step_read (h : Stores lib c s) (i : Fin m) (j : Fin n) (hd : s d = some ⟨t, m, n, X⟩) : StepOk lib c s (.readElem d i j) := by
  refine ⟨c, .elem (X i j), s, ?_, .readElem i j hd, h, Frames.refl c⟩
  cases t with
  | false =>
    obtain ⟨A, e, -, -, -, M, hM, hX⟩ := h.packed hd
    simp only [call, e]
    rw [C12_read hM, hX, elemOf_val]; rfl
  | true =>
    obtain ⟨A, e, -, -, -, M, hM, hX⟩ := h.sliced hd
    simp only [call, e]
    rw [C47_read hM, hX, elemOf_val]; rfl

theorem step_write (h : Stores lib c s) (i : Fin m) (j : Fin n) (x : Elem lib.ff) (hd : s d = some ⟨t, m, n, X⟩) :
    StepOk lib c s (.writeElem d i j x) := by
  cases t with
  | false =>
    obtain ⟨A, e, H⟩ := h.packed hd
    obtain ⟨-, hr, hc, M, hM, hX⟩ := id H
    refine StepOk.inP (R := mzedWriteElem A i j x.1) h e H hM (by simp only [call, e]; rfl) (.writeElem i j x hd) ⟨rfl, rfl, rfl⟩ (C12_write hM i j x) (fun a b => ?_)
      (by intro p q hpq; split_ifs <;> first | rfl | (exfalso; omega))
    rw [hX]; simp only [Fin.ext_iff]
  | true =>
    obtain ⟨A, e, H⟩ := h.sliced hd
    obtain ⟨-, hr, hc, M, hM, hX⟩ := id H
    have := C47_write hM i j x
    refine StepOk.inS  h e H hM (by simp only [call, e]; rfl) (.writeElem i j x hd) this.1 this.2 (fun a b => ?_)
      (by intro p q hpq; split_ifs <;> first | rfl | (exfalso; omega))
    rw [hX]; simp only [Fin.ext_iff]

theorem step_addElem (h : Stores lib c s) (i : Fin m) (j : Fin n) (x : Elem lib.ff) (hd : s d = some ⟨t, m, n, X⟩) :
    StepOk lib c s (.addElem d i j x) := by
  cases t with
  | false =>
    obtain ⟨A, e, H⟩ := h.packed hd
    obtain ⟨-, hr, hc, M, hM, hX⟩ := id H
    refine StepOk.inP (R := mzedAddElem A i j x.1) h e H hM (by simp only [call, e]; rfl) (.addElem i j x hd) ⟨rfl, rfl, rfl⟩ (C12_add hM i j x) (fun a b => ?_)
      (by intro p q hpq; split_ifs <;> first | rfl | (exfalso; omega))
    rw [hX]; simp only [Fin.ext_iff]
  | true =>
    obtain ⟨A, e, H⟩ := h.sliced hd
    obtain ⟨-, hr, hc, M, hM, hX⟩ := id H
    have := C47_add hM i j x
    refine StepOk.inS  h e H hM (by simp only [call, e]; rfl) (.addElem i j x hd) this.1 this.2 (fun a b => ?_)
      (by intro p q hpq; split_ifs <;> first | rfl | (exfalso; omega))
    rw [hX]; simp only [Fin.ext_iff]

theorem step_setUi (h : Stores lib c s) (x : Elem lib.ff) (hd : s d = some ⟨t, m, n, X⟩) : StepOk lib c s (.setUi d x) := by
  cases t with
  | false =>
    obtain ⟨A, e, H⟩ := h.packed hd
    obtain ⟨-, hr, hc, M, hM, hX⟩ := id H
    have := C44_set_ui hM x
    refine StepOk.inP  h e H hM (by simp only [call, e]; rfl) (.setUi x hd) this.2 this.1 (fun a b => ?_)
      (by intro p q hpq; split_ifs <;> first | rfl | (exfalso; omega))
    exact if_pos ⟨hr ▸ a.2, hc ▸ b.2⟩
  | true =>
    obtain ⟨A, e, H⟩ := h.sliced hd
    obtain ⟨-, hr, hc, M, hM, hX⟩ := id H
    have := C52_set_ui hM x
    refine StepOk.inS  h e H hM (by simp only [call, e]; rfl) (.setUi x hd) this.1 this.2 (fun a b => ?_)
      (by intro p q hpq; split_ifs <;> first | rfl | (exfalso; omega))
    exact if_pos ⟨hr ▸ a.2, hc ▸ b.2⟩

theorem step_rowSwap (h : Stores lib c s) (i j : Fin m) (hd : s d = some ⟨t, m, n, X⟩) : StepOk lib c s (.rowSwap d i j) := by
  cases t with
  | false =>
    obtain ⟨A, e, H⟩ := h.packed hd
    obtain ⟨-, hr, hc, M, hM, hX⟩ := id H
    refine StepOk.inP (R := mzedRowSwap A i j) h e H hM (by simp only [call, e]; rfl) (.rowSwap i j hd) ⟨rfl, rfl, rfl⟩ (C16_row_swap hM i j) (fun a b => ?_)
      (by intro p q hpq; split_ifs with hq; (rw [swap_out (m := m) (by omega)]); rfl)
    rw [if_pos (hc ▸ b.2), swap_fin, hX]; rfl
  | true =>
    obtain ⟨A, e, H⟩ := h.sliced hd
    obtain ⟨-, hr, hc, M, hM, hX⟩ := id H
    have := C51_row_swap hM i j
    refine StepOk.inS  h e H hM (by simp only [call, e]; rfl) (.rowSwap i j hd) this.1 this.2 (fun a b => ?_)
      (by intro p q hpq; split_ifs with hq; (rw [swap_out (m := m) (by omega)]); rfl)
    rw [if_pos (hc ▸ b.2), swap_fin, hX]; rfl

theorem step_colSwap (h : Stores lib c s) (i j : Fin n) (hd : s d = some ⟨t, m, n, X⟩) : StepOk lib c s (.colSwap d i j) := by
  cases t with
  | false =>
    obtain ⟨A, e, H⟩ := h.packed hd
    obtain ⟨-, hr, hc, M, hM, hX⟩ := id H
    refine StepOk.inP  h e H hM (by simp only [call, e]; rfl) (.colSwap i j hd) (colSwap_dim ..) (C16_col_swap hM i j) (fun a b => ?_)
      (by intro p q hpq; split_ifs with hq; (rw [swap_out (m := n) (by omega)]); rfl)
    rw [if_pos (hr ▸ a.2), swap_fin, hX]; rfl
  | true =>
    obtain ⟨A, e, H⟩ := h.sliced hd
    obtain ⟨-, hr, hc, M, hM, hX⟩ := id H
    have := C51_col_swap hM i j
    refine StepOk.inS  h e H hM (by simp only [call, e]; rfl) (.colSwap i j hd) this.1 this.2 (fun a b => ?_)
      (by intro p q hpq; split_ifs with hq; (rw [swap_out (m := n) (by omega)]); rfl)
    rw [if_pos (hr ▸ a.2), swap_fin, hX]; rfl

theorem step_rescaleRow (h : Stores lib c s) (i : Fin m) (j : Fin n) (x : Elem lib.ff) (hd : s d = some ⟨false, m, n, X⟩) :
    StepOk lib c s (.rescaleRow d i j x) := by
  obtain ⟨A, e, H⟩ := h.packed hd
  obtain ⟨-, hr, hc, M, hM, hX⟩ := id H
  refine StepOk.inP  h e H hM (by simp only [call, e]; rfl) (.rescaleRow i j x hd) (rescaleRow_dim _ hM.wf.okW ..) (C15_rescale_row hM i j (hc ▸ j.2) x) (fun a b => ?_)
    (by intro p q hpq; split_ifs <;> first | rfl | (exfalso; omega))
  have : b.1 < A.ncols := hc ▸ b.2
  rw [hX]
  simp only [Fin.ext_iff, Fin.le_def, this, and_true]

theorem step_addMultipleOfRow {a m' : Nat} {Y : Matrix (Fin m') (Fin n) (Elem lib.ff)} (h : Stores lib c s) (i : Fin m) (j : Fin m')
    (x : Elem lib.ff) (k : Fin n) (hd : s d = some ⟨false, m, n, X⟩) (ha : s a = some ⟨false, m', n, Y⟩) (hij : d = a → i.1 ≠ j.1) :
    StepOk lib c s (.addMultipleOfRow d i a j x k) := by
  obtain ⟨A, e, H⟩ := h.packed hd
  obtain ⟨B, e', H'⟩ := h.packed ha
  obtain ⟨-, hr, hc, M, hM, hX⟩ := id H
  obtain ⟨-, hr', hc', N, hN, hY⟩ := id H'
  refine StepOk.inP  h e H hM (by simp only [call, e, e']; rfl) (.addMultipleOfRow i j x k hd ha hij) (addMultipleOfRow_dim _ hM.wf.okW ..) (C14_add_multiple_of_row hM hN i j k (hc ▸ k.2) x) (fun a b => ?_)
    (by intro p q hpq; split_ifs <;> first | rfl | (exfalso; omega))
  have : b.1 < A.ncols := hc ▸ b.2
  rw [hX, hY]
  simp only [Fin.ext_iff, Fin.le_def, this, and_true]

theorem step_copy {a : Nat} {Y : Matrix (Fin m) (Fin n) (Elem lib.ff)} (h : Stores lib c s) (hd : s d = some ⟨t, m, n, X⟩)
    (ha : s a = some ⟨t, m, n, Y⟩) : StepOk lib c s (.copy d a) := by
  cases t with
  | false =>
    obtain ⟨A, e, H⟩ := h.packed hd
    obtain ⟨B, e', H'⟩ := h.packed ha
    obtain ⟨hf, hr, hc, M, hM, hX⟩ := id H
    obtain ⟨hf', hr', hc', N, hN, hY⟩ := id H'
    obtain ⟨R, e3, h4, h5⟩ := C43_copy hN hM ⟨by rw [hr, hr'], by rw [hc, hc'], by rw [hf, hf']⟩
    refine StepOk.inP  h e H hM (by simp only [call, e, e', e3]; rfl) (.copy hd ha) (SameDim.of_holds H H' h4) h5 (fun a b => ?_)
      (by intro p q hpq; split_ifs <;> first | rfl | (exfalso; omega))
    rw [if_pos ⟨hr' ▸ a.2, hc' ▸ b.2⟩, hY]
  | true =>
    obtain ⟨A, e, H⟩ := h.sliced hd
    obtain ⟨B, e', H'⟩ := h.sliced ha
    obtain ⟨hf, hr, hc, M, hM, hX⟩ := id H
    obtain ⟨hf', hr', hc', N, hN, hY⟩ := id H'
    have := C52_copy hN hM
    refine StepOk.inS  h e H hM (by simp only [call, e, e']; rfl) (.copy hd ha) this.1 this.2 (fun a b => ?_)
      (by intro p q hpq; split_ifs <;> first | rfl | (exfalso; omega))
    rw [if_pos ⟨hr' ▸ a.2, hc' ▸ b.2⟩, hY]

theorem step_convert {a : Nat} (h : Stores lib c s) (hd : s d = none) (ha : s a = some ⟨t, m, n, X⟩) : StepOk lib c s (.convert d a) := by
  cases t with
  | false =>
    obtain ⟨A, e, H⟩ := h.packed ha
    obtain ⟨hf, hr, hc, M, hM, hX⟩ := id H
    obtain ⟨R, e3, g1, g2, g3, h5⟩ := (C26_new hM (spack_rep (ff := lib.ff) ⟨0, 0, 0, fun _ _ => 0⟩)).1
    refine StepOk.putS h hd (by simp only [call, e, e3]; rfl) (.convert hd ha)
      (⟨g3.trans hf, g1.trans hr, g2.trans hc, _, h5, fun a b => ?_⟩ : HoldsS lib R X)
    rw [if_pos ⟨hr ▸ a.2, hc ▸ b.2⟩, hX]
  | true =>
    obtain ⟨A, e, H⟩ := h.sliced ha
    obtain ⟨hf, hr, hc, M, hM, hX⟩ := id H
    obtain ⟨R, e3, g1, g2, g3, h5⟩ := (C26_new (pack_rep (ff := lib.ff) ⟨0, 0, 0, fun _ _ => 0⟩) hM).2
    refine StepOk.putP h hd (by simp only [call, e, e3]; rfl) (.convert hd ha)
      (⟨g3.trans hf, g1.trans hr, g2.trans hc, _, h5, fun a b => ?_⟩ : HoldsP lib R X)
    rw [if_pos ⟨hr ▸ a.2, hc ▸ b.2⟩, hX]

theorem step_add {a b : Nat} {Y Z : Matrix (Fin m) (Fin n) (Elem lib.ff)} (h : Stores lib c s) (hd : s d = some ⟨t, m, n, Z⟩)
    (ha : s a = some ⟨t, m, n, X⟩) (hb : s b = some ⟨t, m, n, Y⟩) : StepOk lib c s (.add d a b) := by
  cases t with
  | false =>
    obtain ⟨D, e1, H1⟩ := h.packed hd
    obtain ⟨A, e2, H2⟩ := h.packed ha
    obtain ⟨B, e3, H3⟩ := h.packed hb
    obtain ⟨f1, r1, c1, M1, hM1, hX1⟩ := id H1
    obtain ⟨f2, r2, c2, M2, hM2, hX2⟩ := id H2
    obtain ⟨f3, r3, c3, M3, hM3, hX3⟩ := id H3
    obtain ⟨R, e4, h4, h5⟩ := C17_add hM2 hM3 hM1 ⟨by omega, by omega, by omega⟩ ⟨by omega, by omega, by omega⟩
    refine StepOk.inP  h e1 H1 hM1 (by simp only [call, e1, e2, e3, e4]; rfl) (.add hd ha hb) (SameDim.of_holds H1 H2 h4) h5 (fun a b => ?_)
      (by intro p q hpq; split_ifs <;> first | rfl | (exfalso; omega))
    rw [if_pos ⟨r2 ▸ a.2, c2 ▸ b.2⟩, hX2, hX3]; rfl
  | true =>
    obtain ⟨D, e1, H1⟩ := h.sliced hd
    obtain ⟨A, e2, H2⟩ := h.sliced ha
    obtain ⟨B, e3, H3⟩ := h.sliced hb
    obtain ⟨f1, r1, c1, M1, hM1, hX1⟩ := id H1
    obtain ⟨f2, r2, c2, M2, hM2, hX2⟩ := id H2
    obtain ⟨f3, r3, c3, M3, hM3, hX3⟩ := id H3
    obtain ⟨R, e4, h4, h5⟩ := C17_slice_add hM2 hM3 hM1 ⟨by omega, by omega, by omega⟩ ⟨by omega, by omega, by omega⟩
    refine StepOk.inS  h e1 H1 hM1 (by simp only [call, e1, e2, e3, e4]; rfl) (.add hd ha hb) h4 h5 (fun a b => ?_)
      (by intro p q hpq; split_ifs <;> first | rfl | (exfalso; omega))
    rw [if_pos ⟨r2 ▸ a.2, c2 ▸ b.2⟩, hX2, hX3]; rfl

theorem step_mulScalarPacked {a : Nat} {Z : Matrix (Fin m) (Fin n) (Elem lib.ff)} (h : Stores lib c s) (x : Elem lib.ff)
    (hd : s d = some ⟨false, m, n, Z⟩) (ha : s a = some ⟨false, m, n, X⟩) (hn : 0 < n) (hb : ¬ badScalar lib m n) :
    StepOk lib c s (.mulScalar d x a) := by
  obtain ⟨D, e1, H1⟩ := h.packed hd
  obtain ⟨A, e2, H2⟩ := h.packed ha
  obtain ⟨f1, r1, c1, M1, hM1, hX1⟩ := id H1
  obtain ⟨f2, r2, c2, M2, hM2, hX2⟩ := id H2
  obtain ⟨R, e4, h4, h5⟩ := C18_mul_scalar hM2 hM1 ⟨by omega, by omega, by omega⟩ (by omega) x (by
    unfold badScalar at hb
    rw [r2, c2]
    by_cases hs : m * n < 2 ^ 17
    · exact Or.inr hs
    · left
      have := fun hx => hb ⟨hx, by omega⟩
      omega)
  refine StepOk.inP  h e1 H1 hM1 (by simp only [call, e1, e2, e4]; rfl) (.mulScalarPacked x hd ha hn hb) (SameDim.of_holds H1 H2 h4) h5 (fun a b => ?_)
    (by intro p q hpq; split_ifs <;> first | rfl | (exfalso; omega))
  rw [if_pos ⟨r2 ▸ a.2, c2 ▸ b.2⟩, hX2]; rfl

theorem step_mulScalarSliced {a : Nat} {Z : Matrix (Fin m) (Fin n) (Elem lib.ff)} (h : Stores lib c s) (x : Elem lib.ff)
    (hd : s d = some ⟨true, m, n, Z⟩) (ha : s a = some ⟨true, m, n, X⟩) (hda : d ≠ a) : StepOk lib c s (.mulScalar d x a) := by
  obtain ⟨D, e1, H1⟩ := h.sliced hd
  obtain ⟨A, e2, H2⟩ := h.sliced ha
  obtain ⟨f1, r1, c1, M1, hM1, hX1⟩ := id H1
  obtain ⟨f2, r2, c2, M2, hM2, hX2⟩ := id H2
  obtain ⟨R, e4, h4, h5⟩ := C46_mul_scalar hM2 hM1 ⟨by omega, by omega, by omega⟩ x
  refine StepOk.inS  h e1 H1 hM1 (by simp only [call, e1, e2, e4]; rfl) (.mulScalarSliced x hd ha hda) h4 h5 (fun a b => ?_)
    (by intro p q hpq; split_ifs <;> first | rfl | (exfalso; omega))
  rw [if_pos ⟨r1 ▸ a.2, c1 ▸ b.2⟩, hX2]; rfl

end elems

section products
variable {d a b m k n : Nat} {t : Bool} {X : Matrix (Fin m) (Fin k) (Elem lib.ff)} {Y : Matrix (Fin k) (Fin n) (Elem lib.ff)}
  {Z : Matrix (Fin m) (Fin n) (Elem lib.ff)}

theorem step_mul (hlib : LibOk lib) (h : Stores lib c s) (hd : s d = some ⟨t, m, n, Z⟩) (ha : s a = some ⟨t, m, k, X⟩)
    (hb : s b = some ⟨t, k, n, Y⟩) (hda : d ≠ a) (hdb : d ≠ b) (hn : 0 < n) : StepOk lib c s (.mul d a b) := by
  cases t with
  | false =>
    obtain ⟨D, e1, H1⟩ := h.packed hd
    obtain ⟨A, e2, H2⟩ := h.packed ha
    obtain ⟨B, e3, H3⟩ := h.packed hb
    obtain ⟨f1, r1, c1, M1, hM1, hX1⟩ := id H1
    obtain ⟨f2, r2, c2, M2, hM2, hX2⟩ := id H2
    obtain ⟨f3, r3, c3, M3, hM3, hX3⟩ := id H3
    obtain ⟨R, e4, h4, h5⟩ := C25_mul hlib.mul hM2 hM3 hM1 ⟨by omega, by omega, by omega, by omega, by omega⟩ (by omega)
    refine StepOk.inP  h e1 H1 hM1 (by simp only [call, e1, e2, e3, e4]; rfl) (.mul hd ha hb hda hdb hn) h4 h5 (fun a b => ?_)
      (by intro p q hpq; split_ifs <;> first | rfl | (exfalso; omega))
    rw [if_pos ⟨r1 ▸ a.2, c1 ▸ b.2⟩, c2]
    exact mul_of_fn hX2 hX3 a b
  | true =>
    obtain ⟨D, e1, H1⟩ := h.sliced hd
    obtain ⟨A, e2, H2⟩ := h.sliced ha
    obtain ⟨B, e3, H3⟩ := h.sliced hb
    obtain ⟨f1, r1, c1, M1, hM1, hX1⟩ := id H1
    obtain ⟨f2, r2, c2, M2, hM2, hX2⟩ := id H2
    obtain ⟨f3, r3, c3, M3, hM3, hX3⟩ := id H3
    obtain ⟨R, e4, h4, h5⟩ := C28_mul hM2 hM3 hM1 ⟨by omega, by omega, by omega, by omega, by omega⟩
    refine StepOk.inS  h e1 H1 hM1 (by simp only [call, e1, e2, e3, e4]; rfl) (.mul hd ha hb hda hdb hn) h4 h5 (fun a b => ?_)
      (by intro p q hpq; split_ifs <;> first | rfl | (exfalso; omega))
    rw [if_pos ⟨r1 ▸ a.2, c1 ▸ b.2⟩, c2]
    exact mul_of_fn hX2 hX3 a b

theorem step_addmul (hlib : LibOk lib) (h : Stores lib c s) (hd : s d = some ⟨t, m, n, Z⟩) (ha : s a = some ⟨t, m, k, X⟩)
    (hb : s b = some ⟨t, k, n, Y⟩) (hda : d ≠ a) (hdb : d ≠ b) (hn : 0 < n) : StepOk lib c s (.addmul d a b) := by
  cases t with
  | false =>
    obtain ⟨D, e1, H1⟩ := h.packed hd
    obtain ⟨A, e2, H2⟩ := h.packed ha
    obtain ⟨B, e3, H3⟩ := h.packed hb
    obtain ⟨f1, r1, c1, M1, hM1, hX1⟩ := id H1
    obtain ⟨f2, r2, c2, M2, hM2, hX2⟩ := id H2
    obtain ⟨f3, r3, c3, M3, hM3, hX3⟩ := id H3
    obtain ⟨R, e4, h4, h5⟩ := C25_addmul hlib.mul hM2 hM3 hM1 ⟨by omega, by omega, by omega, by omega, by omega⟩ (by omega)
    refine StepOk.inP  h e1 H1 hM1 (by simp only [call, e1, e2, e3, e4]; rfl) (.addmul hd ha hb hda hdb hn) h4 h5 (fun a b => ?_)
      (by intro p q hpq; split_ifs <;> first | rfl | (exfalso; omega))
    rw [if_pos ⟨r1 ▸ a.2, c1 ▸ b.2⟩, c2, hX1]
    exact congrArg (Z a b + ·) (mul_of_fn hX2 hX3 a b)
  | true =>
    obtain ⟨D, e1, H1⟩ := h.sliced hd
    obtain ⟨A, e2, H2⟩ := h.sliced ha
    obtain ⟨B, e3, H3⟩ := h.sliced hb
    obtain ⟨f1, r1, c1, M1, hM1, hX1⟩ := id H1
    obtain ⟨f2, r2, c2, M2, hM2, hX2⟩ := id H2
    obtain ⟨f3, r3, c3, M3, hM3, hX3⟩ := id H3
    obtain ⟨R, e4, h4, h5⟩ := C28_addmul hM2 hM3 hM1 ⟨by omega, by omega, by omega, by omega, by omega⟩
    refine StepOk.inS  h e1 H1 hM1 (by simp only [call, e1, e2, e3, e4]; rfl) (.addmul hd ha hb hda hdb hn) h4 h5 (fun a b => ?_)
      (by intro p q hpq; split_ifs <;> first | rfl | (exfalso; omega))
    rw [if_pos ⟨r1 ▸ a.2, c1 ▸ b.2⟩, c2, hX1]
    exact congrArg (Z a b + ·) (mul_of_fn hX2 hX3 a b)

end products

theorem hcat_fn {K : Type} {m p q : Nat} {X : Matrix (Fin m) (Fin p) K} {Y : Matrix (Fin m) (Fin q) K} {MA MB : Nat → Nat → K} {z : K}
    (hX : ∀ i j, MA i.1 j.1 = X i j) (hY : ∀ i j, MB i.1 j.1 = Y i j) (i : Fin m) (j : Fin (p + q)) :
    (if i.1 < m ∧ j.1 < p then MA i j else if i.1 < m ∧ j.1 < p + q then MB i (j - p) else z) = Spec.hcat X Y i j := by
  unfold Spec.hcat
  refine Fin.addCases (fun l => ?_) (fun l => ?_) j
  · rw [Fin.append_left, if_pos ⟨i.2, l.2⟩]; exact hX i l
  · rw [Fin.append_right, if_neg (fun h => by have := h.2; simp at this), if_pos ⟨i.2, (Fin.natAdd p l).2⟩, ← hY]
    congr 1
    simp

theorem vcat_fn {K : Type} {n p q : Nat} {X : Matrix (Fin p) (Fin n) K} {Y : Matrix (Fin q) (Fin n) K} {MA MB : Nat → Nat → K} {z : K}
    (hX : ∀ i j, MA i.1 j.1 = X i j) (hY : ∀ i j, MB i.1 j.1 = Y i j) (i : Fin (p + q)) (j : Fin n) :
    (if i.1 < p ∧ j.1 < n then MA i j else if i.1 < p + q ∧ j.1 < n then MB (i - p) j else z) = Spec.vcat X Y i j := by
  unfold Spec.vcat
  refine Fin.addCases (fun l => ?_) (fun l => ?_) i
  · rw [Fin.append_left, if_pos ⟨l.2, j.2⟩]; exact hX l j
  · rw [Fin.append_right, if_neg (fun h => by have := h.1; simp at this), if_pos ⟨(Fin.natAdd p l).2, j.2⟩, ← hY]
    congr 1
    simp

section blocks
variable {d a b m n p q : Nat} {t : Bool}

theorem step_concat {X : Matrix (Fin m) (Fin p) (Elem lib.ff)} {Y : Matrix (Fin m) (Fin q) (Elem lib.ff)} (h : Stores lib c s)
    (hd : s d = none) (ha : s a = some ⟨t, m, p, X⟩) (hb : s b = some ⟨t, m, q, Y⟩) : StepOk lib c s (.concat d a b) := by
  cases t with
  | false =>
    obtain ⟨A, e2, H2⟩ := h.packed ha
    obtain ⟨B, e3, H3⟩ := h.packed hb
    obtain ⟨f2, r2, c2, M2, hM2, hX2⟩ := id H2
    obtain ⟨f3, r3, c3, M3, hM3, hX3⟩ := id H3
    obtain ⟨h4, h5, h6⟩ := C43_concat hM2 hM3
    refine StepOk.putP (R := mzedConcat A B) h hd (by simp only [call, e2, e3]; rfl) (.concat hd ha hb)
      (⟨f2, h4.trans r2, by rw [h5, c2, c3], _, h6, fun i j => ?_⟩)
    rw [r2, c2, c3]
    exact hcat_fn hX2 hX3 i j
  | true =>
    obtain ⟨A, e2, H2⟩ := h.sliced ha
    obtain ⟨B, e3, H3⟩ := h.sliced hb
    obtain ⟨f2, r2, c2, M2, hM2, hX2⟩ := id H2
    obtain ⟨f3, r3, c3, M3, hM3, hX3⟩ := id H3
    obtain ⟨h4, h5, h6⟩ := C52_concat hM2 hM3
    refine StepOk.putS (R := mzdSliceConcat A B) h hd (by simp only [call, e2, e3]; rfl) (.concat hd ha hb)
      (⟨f2, h4.trans r2, by rw [h5, c2, c3], _, h6, fun i j => ?_⟩)
    rw [r2, c2, c3]
    exact hcat_fn hX2 hX3 i j

theorem step_stack {X : Matrix (Fin p) (Fin n) (Elem lib.ff)} {Y : Matrix (Fin q) (Fin n) (Elem lib.ff)} (h : Stores lib c s)
    (hd : s d = none) (ha : s a = some ⟨t, p, n, X⟩) (hb : s b = some ⟨t, q, n, Y⟩) : StepOk lib c s (.stack d a b) := by
  cases t with
  | false =>
    obtain ⟨A, e2, H2⟩ := h.packed ha
    obtain ⟨B, e3, H3⟩ := h.packed hb
    obtain ⟨f2, r2, c2, M2, hM2, hX2⟩ := id H2
    obtain ⟨f3, r3, c3, M3, hM3, hX3⟩ := id H3
    obtain ⟨h4, h5, h6⟩ := C43_stack hM2 hM3
    refine StepOk.putP (R := mzedStack A B) h hd (by simp only [call, e2, e3]; rfl) (.stack hd ha hb)
      (⟨f2, by rw [h4, r2, r3], h5.trans c2, _, h6, fun i j => ?_⟩)
    rw [r2, c2, r3]
    exact vcat_fn hX2 hX3 i j
  | true =>
    obtain ⟨A, e2, H2⟩ := h.sliced ha
    obtain ⟨B, e3, H3⟩ := h.sliced hb
    obtain ⟨f2, r2, c2, M2, hM2, hX2⟩ := id H2
    obtain ⟨f3, r3, c3, M3, hM3, hX3⟩ := id H3
    obtain ⟨h4, h5, h6⟩ := C52_stack hM2 hM3
    refine StepOk.putS (R := mzdSliceStack A B) h hd (by simp only [call, e2, e3]; rfl) (.stack hd ha hb)
      (⟨f2, by rw [h4, r2, r3], h5.trans c2, _, h6, fun i j => ?_⟩)
    rw [r2, c2, r3]
    exact vcat_fn hX2 hX3 i j

theorem step_submatrix {lr lc : Nat} {X : Matrix (Fin m) (Fin n) (Elem lib.ff)} (h : Stores lib c s) (hr : lr + p ≤ m) (hc : lc + q ≤ n)
    (hd : s d = none) (ha : s a = some ⟨t, m, n, X⟩) : StepOk lib c s (.submatrix d a lr lc (lr + p) (lc + q)) := by
  cases t with
  | false =>
    obtain ⟨A, e2, H2⟩ := h.packed ha
    obtain ⟨f2, r2, c2, M2, hM2, hX2⟩ := id H2
    obtain ⟨h4, h5, h6⟩ := C43_submatrix hM2 lr lc (lr + p) (lc + q)
    refine StepOk.putP (R := mzedSubmatrix A lr lc (lr + p) (lc + q)) h hd (by simp only [call, e2]; rfl) (.submatrix hr hc hd ha)
      (⟨f2, by rw [h4]; omega, by rw [h5]; omega, _, h6, fun i j => ?_⟩)
    rw [if_pos ⟨by omega, by omega⟩]
    exact hX2 ⟨lr + i, by omega⟩ ⟨lc + j, by omega⟩
  | true =>
    obtain ⟨A, e2, H2⟩ := h.sliced ha
    obtain ⟨f2, r2, c2, M2, hM2, hX2⟩ := id H2
    obtain ⟨h4, h5, h6⟩ := C52_submatrix hM2 lr lc (lr + p) (lc + q)
    refine StepOk.putS (R := mzdSliceSubmatrix A lr lc (lr + p) (lc + q)) h hd (by simp only [call, e2]; rfl) (.submatrix hr hc hd ha)
      (⟨f2, by rw [h4]; omega, by rw [h5]; omega, _, h6, fun i j => ?_⟩)
    rw [if_pos ⟨by omega, by omega⟩]
    exact hX2 ⟨lr + i, by omega⟩ ⟨lc + j, by omega⟩

end blocks

section linalg
variable {d a m n : Nat} {t : Bool}

theorem step_echelonize (hlib : LibOk lib) {X : Matrix (Fin m) (Fin n) (Elem lib.ff)} (h : Stores lib c s) (full : Bool)
    (hd : s d = some ⟨t, m, n, X⟩) : StepOk lib c s (.echelonize d full) := by
  cases t with
  | false =>
    obtain ⟨A, e1, H1⟩ := h.packed hd
    obtain ⟨f1, r1, c1, M1, hM1, hX1⟩ := id H1
    obtain ⟨R, M', piv, h1, h2, h3, h4, h5, h6, hout⟩ :=
      C53_echelonize hlib.compress hlib.cb lib.optK lib.smallNj lib.medium hM1 full
    rw [r1, c1, rank_of_fn hX1] at h1 h4 h5
    rw [r1, c1, rowSpan_of_fn hX1, rowSpan_of_fn (X := Matrix.of fun (i : Fin m) (j : Fin n) => M' i j) (fun _ _ => rfl)] at h6
    exact StepOk.inP  h e1 H1 hM1 (by simp only [call, e1, h1]; rfl) (.echelonize full piv hd (isEchelon_of_fn h4) (fun hf => isRref_of_fn (h5 hf)) h6) h2 h3 (fun _ _ => rfl)
      (fun i j hij => hout i j (by omega))
  | true =>
    obtain ⟨A, e1, H1⟩ := h.sliced hd
    obtain ⟨f1, r1, c1, M1, hM1, hX1⟩ := id H1
    obtain ⟨R, M', piv, h1, h2, h3, h4, h5, h6, hout⟩ := C36_slice_echelonize_ple hlib.compress hlib.cb hM1 full
    rw [r1, c1, rank_of_fn hX1] at h1 h4 h5
    rw [r1, c1, rowSpan_of_fn hX1, rowSpan_of_fn (X := Matrix.of fun (i : Fin m) (j : Fin n) => M' i j) (fun _ _ => rfl)] at h6
    exact StepOk.inS  h e1 H1 hM1 (by simp only [call, e1, h1]; rfl) (.echelonize full piv hd (isEchelon_of_fn h4) (fun hf => isRref_of_fn (h5 hf)) h6) h2 h3 (fun _ _ => rfl)
      (fun i j hij => hout i j (by omega))

theorem step_invert (hlib : LibOk lib) {X : Matrix (Fin n) (Fin n) (Elem lib.ff)} (h : Stores lib c s) (hd : s d = none)
    (ha : s a = some ⟨false, n, n, X⟩) (hX : IsUnit X.det) : StepOk lib c s (.invert d a) := by
  obtain ⟨A, e1, H1⟩ := h.packed ha
  obtain ⟨f1, r1, c1, M1, hM1, hX1⟩ := id H1
  obtain ⟨g1, g2⟩ := C37_invert hlib.cb lib.optK lib.smallNj hM1 (by rw [r1, c1])
  have hM : toMat n M1 = X := by ext i j; exact hX1 i j
  obtain ⟨B, e2⟩ := g2 ⟨ofFin X⁻¹, by
    rw [r1, isInverse_iff, hM]
    have : toMat n (ofFin X⁻¹) = X⁻¹ := by
      ext i j
      exact dif_pos ⟨i.2, j.2⟩
    rw [this, Matrix.nonsing_inv_mul _ hX]⟩
  obtain ⟨h2, N, h3, h4⟩ := g1 B e2
  rw [r1, isInverse_iff, hM] at h4
  refine StepOk.putP h hd (by simp only [call, e1, e2]; rfl) (.invert hd ha hX) (HoldsP.of H1 h2 h3 fun i j => ?_)
  rw [Matrix.inv_eq_left_inv h4]
  rfl

theorem step_trsmLower (hlib : LibOk lib) {L : Matrix (Fin m) (Fin m) (Elem lib.ff)} {B : Matrix (Fin m) (Fin n) (Elem lib.ff)}
    (h : Stores lib c s) (hd : s d = some ⟨t, m, n, B⟩) (ha : s a = some ⟨t, m, m, L⟩) (hda : d ≠ a) (hn : 0 < n) (hL : ∀ i, L i i ≠ 0) :
    StepOk lib c s (.trsmLower a d) := by
  cases t with
  | false =>
    obtain ⟨D, e1, H1⟩ := h.packed hd
    obtain ⟨A, e2, H2⟩ := h.packed ha
    obtain ⟨f1, r1, c1, M1, hM1, hX1⟩ := id H1
    obtain ⟨f2, r2, c2, M2, hM2, hX2⟩ := id H2
    obtain ⟨R, e4, X, h5, h6, h7, hout⟩ := (C30_entry hM2 hM1 (by omega) (by omega) (by omega)
      (fun i hi => by have := hL ⟨i, by omega⟩; rwa [← hX2] at this) (by omega) hlib.mul).1
    rw [r1, c1] at h7
    exact StepOk.inP  h e1 H1 hM1 (by simp only [call, e1, e2, e4]; rfl) (.trsmLower hd ha hda hn hL) h6 h5 (fun i j => lower_solution hX2 hX1 hL h7 i j)
      hout
  | true =>
    obtain ⟨D, e1, H1⟩ := h.sliced hd
    obtain ⟨A, e2, H2⟩ := h.sliced ha
    obtain ⟨f1, r1, c1, M1, hM1, hX1⟩ := id H1
    obtain ⟨f2, r2, c2, M2, hM2, hX2⟩ := id H2
    obtain ⟨R, e4, X, h5, h6, h7, hout⟩ := (C30_slice_entry hM2 hM1 (by omega) (by omega) (by omega)
      (fun i hi => by have := hL ⟨i, by omega⟩; rwa [← hX2] at this) (by omega) hlib.cb).1
    rw [r1, c1] at h7
    exact StepOk.inS  h e1 H1 hM1 (by simp only [call, e1, e2, e4]; rfl) (.trsmLower hd ha hda hn hL) h6 h5 (fun i j => lower_solution hX2 hX1 hL h7 i j)
      hout

theorem step_trsmUpper (hlib : LibOk lib) {U : Matrix (Fin m) (Fin m) (Elem lib.ff)} {B : Matrix (Fin m) (Fin n) (Elem lib.ff)}
    (h : Stores lib c s) (hd : s d = some ⟨t, m, n, B⟩) (ha : s a = some ⟨t, m, m, U⟩) (hda : d ≠ a) (hn : 0 < n) (hU : ∀ i, U i i ≠ 0) :
    StepOk lib c s (.trsmUpper a d) := by
  cases t with
  | false =>
    obtain ⟨D, e1, H1⟩ := h.packed hd
    obtain ⟨A, e2, H2⟩ := h.packed ha
    obtain ⟨f1, r1, c1, M1, hM1, hX1⟩ := id H1
    obtain ⟨f2, r2, c2, M2, hM2, hX2⟩ := id H2
    obtain ⟨R, e4, X, h5, h6, h7, hout⟩ := (C30_entry hM2 hM1 (by omega) (by omega) (by omega)
      (fun i hi => by have := hU ⟨i, by omega⟩; rwa [← hX2] at this) (by omega) hlib.mul).2
    rw [r1, c1] at h7
    exact StepOk.inP  h e1 H1 hM1 (by simp only [call, e1, e2, e4]; rfl) (.trsmUpper hd ha hda hn hU) h6 h5 (fun i j => upper_solution hX2 hX1 hU h7 i j)
      hout
  | true =>
    obtain ⟨D, e1, H1⟩ := h.sliced hd
    obtain ⟨A, e2, H2⟩ := h.sliced ha
    obtain ⟨f1, r1, c1, M1, hM1, hX1⟩ := id H1
    obtain ⟨f2, r2, c2, M2, hM2, hX2⟩ := id H2
    obtain ⟨R, e4, X, h5, h6, h7, hout⟩ := (C30_slice_entry hM2 hM1 (by omega) (by omega) (by omega)
      (fun i hi => by have := hU ⟨i, by omega⟩; rwa [← hX2] at this) (by omega) hlib.cb).2
    rw [r1, c1] at h7
    exact StepOk.inS  h e1 H1 hM1 (by simp only [call, e1, e2, e4]; rfl) (.trsmUpper hd ha hda hn hU) h6 h5 (fun i j => upper_solution hX2 hX1 hU h7 i j)
      hout

theorem step_isZero {X : Matrix (Fin m) (Fin n) (Elem lib.ff)} (h : Stores lib c s) (ha : s a = some ⟨t, m, n, X⟩) :
    StepOk lib c s (.isZero a) := by
  refine ⟨c, .bool (decide (X = 0)), s, ?_, .isZero ha, h, Frames.refl c⟩
  have key : ∀ {A0 B0 : Nat} {M : Nat → Nat → Elem lib.ff}, A0 = m → B0 = n → (∀ i j, M i.1 j.1 = X i j) →
      ((∀ i j, i < A0 → j < B0 → M i j = 0) ↔ X = 0) := by
    rintro _ _ M rfl rfl hX
    constructor
    · intro h; ext1 i j; rw [← hX]; exact h i j i.2 j.2
    · intro h i j hi hj; exact (hX ⟨i, hi⟩ ⟨j, hj⟩).trans (by rw [h]; rfl)
  cases t with
  | false =>
    obtain ⟨A, e1, f1, r1, c1, M1, hM1, hX1⟩ := h.packed ha
    simp only [call, e1]
    have := (C19_is_zero hM1).trans (key r1 c1 hX1)
    rw [Bool.eq_iff_iff.2 (this.trans decide_eq_true_iff.symm)]
  | true =>
    obtain ⟨A, e1, f1, r1, c1, M1, hM1, hX1⟩ := h.sliced ha
    simp only [call, e1]
    have := (C19_slice_is_zero hM1).trans (key r1 c1 hX1)
    rw [Bool.eq_iff_iff.2 (this.trans decide_eq_true_iff.symm)]

theorem step_equal {X Y : Matrix (Fin m) (Fin n) (Elem lib.ff)} (h : Stores lib c s) (ha : s a = some ⟨t, m, n, X⟩)
    (hd : s d = some ⟨t, m, n, Y⟩) : StepOk lib c s (.equal a d) := by
  refine ⟨c, .bool (decide (X = Y)), s, ?_, .equal ha hd, h, Frames.refl c⟩
  have key : ∀ {A0 B0 : Nat} {M N : Nat → Nat → Elem lib.ff}, A0 = m → B0 = n → (∀ i j, M i.1 j.1 = X i j) → (∀ i j, N i.1 j.1 = Y i j) →
      ((∀ i j, i < A0 → j < B0 → M i j = N i j) ↔ X = Y) := by
    rintro _ _ M N rfl rfl hX hY
    constructor
    · intro h; ext1 i j; rw [← hX, ← hY]; exact h i j i.2 j.2
    · intro h i j hi hj; exact (hX ⟨i, hi⟩ ⟨j, hj⟩).trans (by rw [h]; exact (hY ⟨i, hi⟩ ⟨j, hj⟩).symm)
  cases t with
  | false =>
    obtain ⟨A, e1, f1, r1, c1, M1, hM1, hX1⟩ := h.packed ha
    obtain ⟨B, e2, f2, r2, c2, M2, hM2, hX2⟩ := h.packed hd
    simp only [call, e1, e2]
    have := C19_cmp hM1 hM2
    rw [and_iff_right (r1.trans r2.symm), and_iff_right (c1.trans c2.symm)] at this
    rw [Bool.eq_iff_iff.2 ((this.trans (key r1 c1 hX1 hX2)).trans decide_eq_true_iff.symm)]
  | true =>
    obtain ⟨A, e1, f1, r1, c1, M1, hM1, hX1⟩ := h.sliced ha
    obtain ⟨B, e2, f2, r2, c2, M2, hM2, hX2⟩ := h.sliced hd
    simp only [call, e1, e2]
    have := C19_slice_cmp hM1 hM2
    rw [and_iff_right (f1.trans f2.symm), and_iff_right (r1.trans r2.symm), and_iff_right (c1.trans c2.symm)] at this
    rw [Bool.eq_iff_iff.2 ((this.trans (key r1 c1 hX1 hX2)).trans decide_eq_true_iff.symm)]

end linalg

end step

/-- **C58** one call: whenever the abstract operation may be performed, the library returns what it may return, the memory then stores what the
abstract operation leaves behind, and nothing outside the matrices has been touched. -/
theorem C58_step (hlib : LibOk lib) {c : Pool} {s : AState (Elem lib.ff)} (h : Stores lib c s) {op : Op (Elem lib.ff)}
    (hop : MayCall (badScalar lib) s op) :
    ∃ c' out s', call lib c op = some (c', out) ∧ Allowed (badScalar lib) s op out s' ∧ Stores lib c' s' ∧ Frames lib c c' := by
  obtain ⟨out, s', hop⟩ := hop
  cases hop with
  | init t d m n hd => exact step_init h t d m n hd
  | free d hd => exact step_free h d hd
  | readElem i j hd => exact step_read h i j hd
  | writeElem i j x hd => exact step_write h i j x hd
  | addElem i j x hd => exact step_addElem h i j x hd
  | setUi x hd => exact step_setUi h x hd
  | rowSwap i j hd => exact step_rowSwap h i j hd
  | colSwap i j hd => exact step_colSwap h i j hd
  | rescaleRow i c x hd => exact step_rescaleRow h i c x hd
  | addMultipleOfRow i j x c hd ha hij => exact step_addMultipleOfRow h i j x c hd ha hij
  | copy hd ha => exact step_copy h hd ha
  | convert hd ha => exact step_convert h hd ha
  | add hd ha hb => exact step_add h hd ha hb
  | mulScalarPacked x hd ha hn hb => exact step_mulScalarPacked h x hd ha hn hb
  | mulScalarSliced x hd ha hda => exact step_mulScalarSliced h x hd ha hda
  | mul hd ha hb hda hdb hn => exact step_mul hlib h hd ha hb hda hdb hn
  | addmul hd ha hb hda hdb hn => exact step_addmul hlib h hd ha hb hda hdb hn
  | concat hd ha hb => exact step_concat h hd ha hb
  | stack hd ha hb => exact step_stack h hd ha hb
  | submatrix hr hc hd ha => exact step_submatrix h hr hc hd ha
  | echelonize full piv hd _ _ _ => exact step_echelonize hlib h full hd
  | invert hd ha hX => exact step_invert hlib h hd ha hX
  | trsmLower hd ha hda hn hL => exact step_trsmLower hlib h hd ha hda hn hL
  | trsmUpper hd ha hda hn hU => exact step_trsmUpper hlib h hd ha hda hn hU
  | isZero ha => exact step_isZero h ha
  | equal ha hb => exact step_equal h ha hb

/-- **C58** every history: a program all of whose calls may be made runs to the end without dying, returns what the same sequence of operations on
Mathlib matrices returns, and leaves the same matrices behind. -/
theorem C58_history (hlib : LibOk lib) : ∀ (ops : List (Op (Elem lib.ff))) {c : Pool} {s : AState (Elem lib.ff)}, Stores lib c s →
    Safe (badScalar lib) s ops →
    ∃ c' outs s', runProgram lib c ops = some (c', outs) ∧ Runs (badScalar lib) s ops outs s' ∧ Stores lib c' s' := by
  intro ops
  induction ops with
  | nil => intro c s h _; exact ⟨c, [], s, rfl, .nil s, h⟩
  | cons op ops ih =>
    intro c s h hs
    obtain ⟨c1, out, s1, e1, h1, g1, -⟩ := C58_step hlib h hs.1
    obtain ⟨c2, outs, s2, e2, h2, g2⟩ := ih g1 (hs.2 out s1 h1)
    exact ⟨c2, out :: outs, s2, by simp only [runProgram, e1, Option.bind_some, e2, Option.map_some], .cons h1 h2, g2⟩

theorem some_mat {K : Type} {t t' : Bool} {m n m' n' : Nat} {X : Matrix (Fin m) (Fin n) K} {X' : Matrix (Fin m') (Fin n') K} {o : Option (AMat K)}
    (h : o = some ⟨t, m, n, X⟩) (h' : o = some ⟨t', m', n', X'⟩) : t = t' ∧ m = m' ∧ n = n' ∧ HEq X X' := by
  have := h.symm.trans h'
  simpa using this

section unique
variable {K : Type} [Field K] [DecidableEq K] {bad : Nat → Nat → Prop} {s : AState K}

/-- the specification leaves no choice: the outcome of every call except an echelonization that is not asked to be reduced is determined (and of
that one, the rank) -/
theorem allowed_unique {op op' : Op K} {o1 o2 : Out K} {s1 s2 : AState K} (h1 : Allowed bad s op o1 s1) (h2 : Allowed bad s op' o2 s2)
    (he : op = op') (hne : ∀ d, op ≠ .echelonize d false) : o1 = o2 ∧ s1 = s2 := by
  cases h1 <;> cases h2 <;> first | (simp only [reduceCtorEq] at he; done) | skip
  case init.init => cases he; exact ⟨rfl, rfl⟩
  case free.free => cases he; exact ⟨rfl, rfl⟩
  case readElem.readElem e1 _ _ _ _ _ _ _ f1 =>
    simp only [Op.readElem.injEq] at he
    obtain ⟨rfl, hi, hj⟩ := he
    obtain ⟨ht, hm, hn, hX⟩ := some_mat e1 f1
    first | subst ht | skip
    subst hm
    first | subst hn | skip
    obtain rfl := eq_of_heq hX
    obtain rfl := Fin.ext hi
    obtain rfl := Fin.ext hj
    exact ⟨rfl, rfl⟩
  case writeElem.writeElem e1 _ _ _ _ _ _ _ _ f1 =>
    simp only [Op.writeElem.injEq] at he
    obtain ⟨rfl, hi, hj, rfl⟩ := he
    obtain ⟨ht, hm, hn, hX⟩ := some_mat e1 f1
    first | subst ht | skip
    subst hm
    first | subst hn | skip
    obtain rfl := eq_of_heq hX
    obtain rfl := Fin.ext hi
    obtain rfl := Fin.ext hj
    exact ⟨rfl, rfl⟩
  case addElem.addElem e1 _ _ _ _ _ _ _ _ f1 =>
    simp only [Op.addElem.injEq] at he
    obtain ⟨rfl, hi, hj, rfl⟩ := he
    obtain ⟨ht, hm, hn, hX⟩ := some_mat e1 f1
    first | subst ht | skip
    subst hm
    first | subst hn | skip
    obtain rfl := eq_of_heq hX
    obtain rfl := Fin.ext hi
    obtain rfl := Fin.ext hj
    exact ⟨rfl, rfl⟩
  case setUi.setUi e1 _ _ _ _ _ _ f1 =>
    simp only [Op.setUi.injEq] at he
    obtain ⟨rfl, rfl⟩ := he
    obtain ⟨ht, hm, hn, hX⟩ := some_mat e1 f1
    first | subst ht | skip
    subst hm
    first | subst hn | skip
    obtain rfl := eq_of_heq hX
    exact ⟨rfl, rfl⟩
  case rowSwap.rowSwap e1 _ _ _ _ _ _ _ f1 =>
    simp only [Op.rowSwap.injEq] at he
    obtain ⟨rfl, hi, hj⟩ := he
    obtain ⟨ht, hm, hn, hX⟩ := some_mat e1 f1
    first | subst ht | skip
    subst hm
    first | subst hn | skip
    obtain rfl := eq_of_heq hX
    obtain rfl := Fin.ext hi
    obtain rfl := Fin.ext hj
    exact ⟨rfl, rfl⟩
  case colSwap.colSwap e1 _ _ _ _ _ _ _ f1 =>
    simp only [Op.colSwap.injEq] at he
    obtain ⟨rfl, hi, hj⟩ := he
    obtain ⟨ht, hm, hn, hX⟩ := some_mat e1 f1
    first | subst ht | skip
    subst hm
    first | subst hn | skip
    obtain rfl := eq_of_heq hX
    obtain rfl := Fin.ext hi
    obtain rfl := Fin.ext hj
    exact ⟨rfl, rfl⟩
  case rescaleRow.rescaleRow e1 _ _ _ _ _ _ _ f1 =>
    simp only [Op.rescaleRow.injEq] at he
    obtain ⟨rfl, hi, hj, rfl⟩ := he
    obtain ⟨ht, hm, hn, hX⟩ := some_mat e1 f1
    first | subst ht | skip
    subst hm
    first | subst hn | skip
    obtain rfl := eq_of_heq hX
    obtain rfl := Fin.ext hi
    obtain rfl := Fin.ext hj
    exact ⟨rfl, rfl⟩
  case addMultipleOfRow.addMultipleOfRow e1 e2 _ _ _ _ _ _ _ _ _ _ _ _ f1 f2 _ =>
    simp only [Op.addMultipleOfRow.injEq] at he
    obtain ⟨rfl, hi, rfl, hj, rfl, hc⟩ := he
    obtain ⟨ht, hm, hn, hX⟩ := some_mat e1 f1
    first | subst ht | skip
    subst hm
    first | subst hn | skip
    obtain rfl := eq_of_heq hX
    obtain ⟨-, hm2, hn2, hX⟩ := some_mat e2 f2
    first | subst hm2 | skip
    first | subst hn2 | skip
    obtain rfl := eq_of_heq hX
    obtain rfl := Fin.ext hi
    obtain rfl := Fin.ext hj
    obtain rfl := Fin.ext hc
    exact ⟨rfl, rfl⟩
  case copy.copy e1 e2 _ _ _ _ _ _ _ f1 f2 =>
    simp only [Op.copy.injEq] at he
    obtain ⟨rfl, rfl⟩ := he
    obtain ⟨ht, hm, hn, hX⟩ := some_mat e1 f1
    first | subst ht | skip
    subst hm
    first | subst hn | skip
    obtain rfl := eq_of_heq hX
    obtain ⟨-, hm2, hn2, hX⟩ := some_mat e2 f2
    first | subst hm2 | skip
    first | subst hn2 | skip
    obtain rfl := eq_of_heq hX
    exact ⟨rfl, rfl⟩
  case convert.convert e1 e2 _ _ _ _ _ _ f1 f2 =>
    simp only [Op.convert.injEq] at he
    obtain ⟨rfl, rfl⟩ := he
    obtain ⟨ht, hm, hn, hX⟩ := some_mat e2 f2
    first | subst ht | skip
    subst hm
    first | subst hn | skip
    obtain rfl := eq_of_heq hX
    exact ⟨rfl, rfl⟩
  case add.add e1 e2 e3 _ _ _ _ _ _ _ _ _ f1 f2 f3 =>
    simp only [Op.add.injEq] at he
    obtain ⟨rfl, rfl, rfl⟩ := he
    obtain ⟨ht, hm, hn, hX⟩ := some_mat e1 f1
    first | subst ht | skip
    subst hm
    first | subst hn | skip
    obtain rfl := eq_of_heq hX
    obtain ⟨-, hm2, hn2, hX⟩ := some_mat e2 f2
    first | subst hm2 | skip
    first | subst hn2 | skip
    obtain rfl := eq_of_heq hX
    obtain ⟨-, hm3, hn3, hX⟩ := some_mat e3 f3
    first | subst hm3 | skip
    first | subst hn3 | skip
    obtain rfl := eq_of_heq hX
    exact ⟨rfl, rfl⟩
  case mulScalarPacked.mulScalarPacked e1 e2 _ _ _ _ _ _ _ _ _ f1 f2 _ _ =>
    simp only [Op.mulScalar.injEq] at he
    obtain ⟨rfl, rfl, rfl⟩ := he
    obtain ⟨ht, hm, hn, hX⟩ := some_mat e1 f1
    first | subst ht | skip
    subst hm
    first | subst hn | skip
    obtain rfl := eq_of_heq hX
    obtain ⟨-, hm2, hn2, hX⟩ := some_mat e2 f2
    first | subst hm2 | skip
    first | subst hn2 | skip
    obtain rfl := eq_of_heq hX
    exact ⟨rfl, rfl⟩
  case mulScalarPacked.mulScalarSliced e1 e2 _ _ _ _ _ _ _ _ _ f1 f2 _ =>
    simp only [Op.mulScalar.injEq] at he
    obtain ⟨rfl, rfl, rfl⟩ := he
    exact absurd (some_mat e1 f1).1 (by simp)
  case mulScalarSliced.mulScalarPacked e1 e2 _ _ _ _ _ _ _ _ f1 f2 _ _ =>
    simp only [Op.mulScalar.injEq] at he
    obtain ⟨rfl, rfl, rfl⟩ := he
    exact absurd (some_mat e1 f1).1 (by simp)
  case mulScalarSliced.mulScalarSliced e1 e2 _ _ _ _ _ _ _ _ f1 f2 _ =>
    simp only [Op.mulScalar.injEq] at he
    obtain ⟨rfl, rfl, rfl⟩ := he
    obtain ⟨ht, hm, hn, hX⟩ := some_mat e1 f1
    first | subst ht | skip
    subst hm
    first | subst hn | skip
    obtain rfl := eq_of_heq hX
    obtain ⟨-, hm2, hn2, hX⟩ := some_mat e2 f2
    first | subst hm2 | skip
    first | subst hn2 | skip
    obtain rfl := eq_of_heq hX
    exact ⟨rfl, rfl⟩
  case mul.mul e1 e2 e3 _ _ _ _ _ _ _ _ _ _ _ _ _ f1 f2 f3 _ _ _ =>
    simp only [Op.mul.injEq] at he
    obtain ⟨rfl, rfl, rfl⟩ := he
    obtain ⟨ht, hm, hn, hX⟩ := some_mat e1 f1
    first | subst ht | skip
    subst hm
    first | subst hn | skip
    obtain rfl := eq_of_heq hX
    obtain ⟨-, hm2, hn2, hX⟩ := some_mat e2 f2
    first | subst hm2 | skip
    first | subst hn2 | skip
    obtain rfl := eq_of_heq hX
    obtain ⟨-, hm3, hn3, hX⟩ := some_mat e3 f3
    first | subst hm3 | skip
    first | subst hn3 | skip
    obtain rfl := eq_of_heq hX
    exact ⟨rfl, rfl⟩
  case addmul.addmul e1 e2 e3 _ _ _ _ _ _ _ _ _ _ _ _ _ f1 f2 f3 _ _ _ =>
    simp only [Op.addmul.injEq] at he
    obtain ⟨rfl, rfl, rfl⟩ := he
    obtain ⟨ht, hm, hn, hX⟩ := some_mat e1 f1
    first | subst ht | skip
    subst hm
    first | subst hn | skip
    obtain rfl := eq_of_heq hX
    obtain ⟨-, hm2, hn2, hX⟩ := some_mat e2 f2
    first | subst hm2 | skip
    first | subst hn2 | skip
    obtain rfl := eq_of_heq hX
    obtain ⟨-, hm3, hn3, hX⟩ := some_mat e3 f3
    first | subst hm3 | skip
    first | subst hn3 | skip
    obtain rfl := eq_of_heq hX
    exact ⟨rfl, rfl⟩
  case concat.concat e1 e2 e3 _ _ _ _ _ _ _ _ _ f1 f2 f3 =>
    simp only [Op.concat.injEq] at he
    obtain ⟨rfl, rfl, rfl⟩ := he
    obtain ⟨ht, hm, hn, hX⟩ := some_mat e2 f2
    first | subst ht | skip
    subst hm
    first | subst hn | skip
    obtain rfl := eq_of_heq hX
    obtain ⟨-, hm3, hn3, hX⟩ := some_mat e3 f3
    first | subst hm3 | skip
    first | subst hn3 | skip
    obtain rfl := eq_of_heq hX
    exact ⟨rfl, rfl⟩
  case stack.stack e1 e2 e3 _ _ _ _ _ _ _ _ _ f1 f2 f3 =>
    simp only [Op.stack.injEq] at he
    obtain ⟨rfl, rfl, rfl⟩ := he
    obtain ⟨ht, hm, hn, hX⟩ := some_mat e2 f2
    first | subst ht | skip
    subst hm
    first | subst hn | skip
    obtain rfl := eq_of_heq hX
    obtain ⟨-, hm3, hn3, hX⟩ := some_mat e3 f3
    first | subst hm3 | skip
    first | subst hn3 | skip
    obtain rfl := eq_of_heq hX
    exact ⟨rfl, rfl⟩
  case submatrix.submatrix e2 _ _ _ _ _ _ _ _ _ _ _ _ _ f2 =>
    simp only [Op.submatrix.injEq] at he
    obtain ⟨rfl, rfl, rfl, rfl, hp, hq⟩ := he
    obtain ⟨ht, hm, hn, hX⟩ := some_mat e2 f2
    first | subst ht | skip
    subst hm
    first | subst hn | skip
    obtain rfl := eq_of_heq hX
    obtain rfl := Nat.add_left_cancel hp
    obtain rfl := Nat.add_left_cancel hq
    exact ⟨rfl, rfl⟩
  case echelonize.echelonize full _ e1 a1 a2 a3 _ _ _ _ _ _ full' _ f1 b1 b2 b3 =>
    simp only [Op.echelonize.injEq] at he
    obtain ⟨rfl, rfl⟩ := he
    obtain ⟨ht, hm, hn, hX⟩ := some_mat e1 f1
    first | subst ht | skip
    subst hm
    first | subst hn | skip
    obtain rfl := eq_of_heq hX
    cases full with
    | false => exact absurd rfl (hne _)
    | true =>
      have := (a2 rfl).unique (b2 rfl) (by
        rw [rowSpan_of_fn (fun i j => dif_pos ⟨i.2, j.2⟩), rowSpan_of_fn (fun i j => dif_pos ⟨i.2, j.2⟩)]
        exact a3.trans b3.symm)
      refine ⟨rfl, ?_⟩
      congr 3
      ext i j
      have := this.2.2 i i.2 j j.2
      unfold ofFin at this
      rwa [dif_pos ⟨i.2, j.2⟩, dif_pos ⟨i.2, j.2⟩] at this
  case invert.invert e1 e2 _ _ _ _ _ f1 f2 _ =>
    simp only [Op.invert.injEq] at he
    obtain ⟨rfl, rfl⟩ := he
    obtain ⟨ht, hm, hn, hX⟩ := some_mat e2 f2
    first | subst ht | skip
    subst hm
    first | subst hn | skip
    obtain rfl := eq_of_heq hX
    exact ⟨rfl, rfl⟩
  case trsmLower.trsmLower e1 e2 _ _ _ _ _ _ _ _ _ _ f1 f2 _ _ _ =>
    simp only [Op.trsmLower.injEq] at he
    obtain ⟨rfl, rfl⟩ := he
    obtain ⟨ht, hm, hn, hX⟩ := some_mat e1 f1
    first | subst ht | skip
    subst hm
    first | subst hn | skip
    obtain rfl := eq_of_heq hX
    obtain ⟨-, hm2, hn2, hX⟩ := some_mat e2 f2
    first | subst hm2 | skip
    first | subst hn2 | skip
    obtain rfl := eq_of_heq hX
    exact ⟨rfl, rfl⟩
  case trsmUpper.trsmUpper e1 e2 _ _ _ _ _ _ _ _ _ _ f1 f2 _ _ _ =>
    simp only [Op.trsmUpper.injEq] at he
    obtain ⟨rfl, rfl⟩ := he
    obtain ⟨ht, hm, hn, hX⟩ := some_mat e1 f1
    first | subst ht | skip
    subst hm
    first | subst hn | skip
    obtain rfl := eq_of_heq hX
    obtain ⟨-, hm2, hn2, hX⟩ := some_mat e2 f2
    first | subst hm2 | skip
    first | subst hn2 | skip
    obtain rfl := eq_of_heq hX
    exact ⟨rfl, rfl⟩
  case isZero.isZero e1 _ _ _ _ _ f1 =>
    simp only [Op.isZero.injEq] at he
    subst he
    obtain ⟨ht, hm, hn, hX⟩ := some_mat e1 f1
    first | subst ht | skip
    subst hm
    first | subst hn | skip
    obtain rfl := eq_of_heq hX
    exact ⟨rfl, rfl⟩
  case equal.equal e1 e2 _ _ _ _ _ _ _ f1 f2 =>
    simp only [Op.equal.injEq] at he
    obtain ⟨rfl, rfl⟩ := he
    obtain ⟨ht, hm, hn, hX⟩ := some_mat e1 f1
    first | subst ht | skip
    subst hm
    first | subst hn | skip
    obtain rfl := eq_of_heq hX
    obtain ⟨-, hm2, hn2, hX⟩ := some_mat e2 f2
    first | subst hm2 | skip
    first | subst hn2 | skip
    obtain rfl := eq_of_heq hX
    exact ⟨rfl, rfl⟩

/-- a program may be checked along its only run -/
theorem safe_cons {op : Op K} {ops : List (Op K)} {out : Out K} {s1 : AState K} (h1 : Allowed bad s op out s1) (hne : ∀ d, op ≠ .echelonize d false)
    (h2 : Safe bad s1 ops) : Safe bad s (op :: ops) :=
  ⟨⟨_, _, h1⟩, fun out' s' h' => by rw [← (allowed_unique h1 h' rfl hne).2]; exact h2⟩

theorem runs_unique : ∀ {ops : List (Op K)} {s : AState K} {o1 o2 : List (Out K)} {s1 s2 : AState K}, Runs bad s ops o1 s1 → Runs bad s ops o2 s2 →
    (∀ d, Op.echelonize d false ∉ ops) → o1 = o2 ∧ s1 = s2 := by
  intro ops
  induction ops with
  | nil => intro s o1 o2 s1 s2 h1 h2 _; cases h1; cases h2; exact ⟨rfl, rfl⟩
  | cons op ops ih =>
    intro s o1 o2 s1 s2 h1 h2 hne
    cases h1 with
    | cons a1 r1 => cases h2 with
      | cons a2 r2 =>
        obtain ⟨rfl, rfl⟩ := allowed_unique a1 a2 rfl (fun d h => hne d (by rw [h]; simp))
        obtain ⟨rfl, rfl⟩ := ih r1 r2 (fun d h => hne d (List.mem_cons_of_mem _ h))
        exact ⟨rfl, rfl⟩

end unique

/-- **C58** for a program that has an abstract run `outs` and only asks for reduced echelon forms, the library returns exactly `outs`. -/
theorem C58_deterministic (hlib : LibOk lib) {ops : List (Op (Elem lib.ff))} {c : Pool} {s s' : AState (Elem lib.ff)} {outs : List (Out (Elem lib.ff))}
    (h : Stores lib c s) (hr : Runs (badScalar lib) s ops outs s') (hne : ∀ d, Op.echelonize d false ∉ ops) :
    ∃ c', runProgram lib c ops = some (c', outs) ∧ Stores lib c' s' := by
  have hs : Safe (badScalar lib) s ops := by
    clear h
    induction hr with
    | nil => trivial
    | cons a r ih => exact safe_cons a (fun d h => hne d (by rw [h]; simp)) (ih (fun d h => hne d (List.mem_cons_of_mem _ h)))
  obtain ⟨c', outs', s'', e, h1, h2⟩ := C58_history hlib ops h hs
  obtain ⟨rfl, rfl⟩ := runs_unique hr h1 hne
  exact ⟨c', e, h2⟩

theorem set_self {K : Type} (s : AState K) (d : Nat) (X : Option (AMat K)) : s.set d X d = X := if_pos rfl
theorem set_ne {K : Type} (s : AState K) {d k : Nat} (X : Option (AMat K)) (h : k ≠ d) : s.set d X k = s k := if_neg h

theorem allowed_equal_true {s : AState (Elem lib.ff)} {a b m n : Nat} {t : Bool} {X Y : Matrix (Fin m) (Fin n) (Elem lib.ff)}
    (h1 : s a = some ⟨t, m, n, X⟩) (h2 : s b = some ⟨t, m, n, Y⟩) (h : X = Y) : Allowed (badScalar lib) s (.equal a b) (.bool true) s := by
  have := Allowed.equal (badScalar := badScalar lib) h1 h2
  rwa [decide_eq_true h] at this

/-- **C58** (a consequence) invert a matrix, convert both to the sliced representation, multiply there, and compare with the identity: the answer
is `true`, for every invertible matrix of every size over every field. -/
theorem C58_inverse_program (hlib : LibOk lib) {n : Nat} (hn : 0 < n) {X : Matrix (Fin n) (Fin n) (Elem lib.ff)} (hX : IsUnit X.det) {c : Pool}
    {s : AState (Elem lib.ff)} (h : Stores lib c s) (h0 : s 0 = some ⟨false, n, n, X⟩) (h1 : ∀ k, 1 ≤ k → s k = none) :
    ∃ c', runProgram lib c [.invert 1 0, .convert 2 0, .convert 3 1, .init true 4 n n, .mul 4 2 3, .init true 5 n n, .setUi 5 1, .equal 4 5] =
      some (c', [.unit, .unit, .unit, .unit, .unit, .unit, .unit, .bool true]) := by
  have one : (X * X⁻¹) = fun (a b : Fin n) => if a.1 = b.1 then (1 : Elem lib.ff) else 0 := by
    rw [Matrix.mul_nonsing_inv _ hX]
    ext i j
    rw [Matrix.one_apply]
    simp only [Fin.ext_iff]
  obtain ⟨c', e, -⟩ := C58_deterministic hlib h (outs := [.unit, .unit, .unit, .unit, .unit, .unit, .unit, .bool true])
    (Runs.cons (.invert (h1 1 (by omega)) h0 hX)
    (.cons (.convert (d := 2) (a := 0) (t := false) (X := X) (by rw [set_ne _ _ (by decide)]; exact h1 2 (by omega)) (by rw [set_ne _ _ (by decide)]; exact h0))
    (.cons (.convert (d := 3) (a := 1) (t := false) (X := X⁻¹) (by rw [set_ne _ _ (by decide), set_ne _ _ (by decide)]; exact h1 3 (by omega))
      (by rw [set_ne _ _ (by decide), set_self]))
    (.cons (.init true 4 n n (by rw [set_ne _ _ (by decide), set_ne _ _ (by decide), set_ne _ _ (by decide)]; exact h1 4 (by omega)))
    (.cons (.mul (d := 4) (a := 2) (b := 3) (t := true) (Z := 0) (X := X) (Y := X⁻¹) (by rw [set_self])
      (by rw [set_ne _ _ (by decide), set_ne _ _ (by decide), set_self]; rfl)
      (by rw [set_ne _ _ (by decide), set_self]; rfl) (by decide) (by decide) hn)
    (.cons (.init true 5 n n (by
      rw [set_ne _ _ (by decide), set_ne _ _ (by decide), set_ne _ _ (by decide), set_ne _ _ (by decide), set_ne _ _ (by decide)]
      exact h1 5 (by omega)))
    (.cons (.setUi (d := 5) (t := true) (X := 0) 1 (by rw [set_self]))
    (.cons (allowed_equal_true (a := 4) (b := 5) (t := true) (by rw [set_ne _ _ (by decide), set_ne _ _ (by decide), set_self]) (by rw [set_self]) one)
    (.nil _))))))))) (by intro d; simp)
  exact ⟨c', e⟩

/-- a library over a field with the standard Gray codes -/
def stdLib (ff : Gf2e) : Lib := ⟨ff, 0, ⟨grayCode, 2048, Nat.sqrt, 1 <<< 20⟩, pleEnv0, 4, true, fun _ _ => true⟩

instance (ff : Gf2e) [h : IsField ff] : IsField (stdLib ff).ff := h

theorem stdLib_ok (ff : Gf2e) [IsField ff] : LibOk (stdLib ff) :=
  ⟨⟨grayCode_ok _, show 16 ≤ 2048 by decide, rfl, show 4096 ≤ 1 <<< 20 by decide⟩, pleEnv0_ok, grayCode_ok _⟩

-- over the AES field, starting with nothing: create a 2 x 3 matrix, write an entry, convert it, echelonize the sliced copy (not reduced), read from it
example : ∃ ff, ∃ _ : IsField ff, ff.degree = 8 ∧ LibOk (stdLib ff) ∧ Stores (stdLib ff) (fun _ => none) (fun _ => none) ∧
    Safe (badScalar (stdLib ff)) (fun _ => none)
      [.init false 0 2 3, .writeElem 0 1 2 (1 : Elem ff), .convert 1 0, .echelonize 1 false, .readElem 1 0 2] := by
  obtain ⟨ff, h, hd⟩ := exists_aes
  refine ⟨ff, h, hd, stdLib_ok ff, fun _ => trivial, ?_⟩
  have h0 : Stores (stdLib ff) (fun _ => none) (fun _ => none) := fun _ => trivial
  refine safe_cons (.init false 0 2 3 rfl) (by simp) ?_
  refine safe_cons (.writeElem (t := false) (X := 0) (1 : Fin 2) (2 : Fin 3) (1 : Elem ff) (set_self _ _ _)) (by simp) ?_
  refine safe_cons (.convert (d := 1) (a := 0) (t := false) rfl (set_self _ _ _)) (by simp) ?_
  generalize hs : AState.set _ 1 _ = s
  have hs1 : ∃ X : Matrix (Fin 2) (Fin 3) (Elem ff), s 1 = some (AMat.mk true 2 3 X) := ⟨_, by rw [← hs, set_self]; rfl⟩
  clear hs
  obtain ⟨X, hs1⟩ := hs1
  constructor
  · obtain ⟨c', out, s', -, h1, -⟩ := step_echelonize (lib := stdLib ff) (stdLib_ok ff) (c := fun k => if k = 1 then some (.sliced (Mat.spack (ff := ff) ⟨2, 3, 0, ofFin X⟩)) else none)
      (s := fun k => if k = 1 then some ⟨true, 2, 3, X⟩ else none) (d := 1) (t := true) (X := X) (fun k => by
        by_cases hk : k = 1
        · subst hk
          exact (⟨rfl, rfl, rfl, _, spack_rep (ff := ff) _, fun i j => dif_pos (And.intro i.2 j.2)⟩ : HoldsS (stdLib ff) (Mat.spack (ff := ff) ⟨2, 3, 0, ofFin X⟩) X)
        · simp only [hk, if_false]) false rfl
    generalize hop : Op.echelonize 1 false = op at h1
    cases h1 with
    | echelonize full piv e1 a1 a2 a3 =>
      cases hop
      cases e1
      exact ⟨_, _, .echelonize false piv hs1 a1 a2 a3⟩
    | _ => cases hop
  · intro out s' h1
    generalize hop : Op.echelonize 1 false = op at h1
    cases h1 with
    | echelonize full piv e1 a1 a2 a3 =>
      cases hop
      obtain ⟨rfl, rfl, rfl, -⟩ := some_mat hs1 e1
      exact safe_cons (.readElem (0 : Fin 2) (2 : Fin 3) (set_self _ _ _)) (by simp) trivial
    | _ => cases hop

-- an invertible matrix meeting the hypotheses of `C58_inverse_program`
example : ∃ ff, ∃ _ : IsField ff, LibOk (stdLib ff) ∧ ∃ (X : Matrix (Fin 2) (Fin 2) (Elem ff)) (c : Pool) (s : AState (Elem ff)), IsUnit X.det ∧
    X ≠ 1 ∧ Stores (stdLib ff) c s ∧ s 0 = some ⟨false, 2, 2, X⟩ ∧ ∀ k, 1 ≤ k → s k = none := by
  obtain ⟨ff, h, hd⟩ := exists_aes
  refine ⟨ff, h, stdLib_ok ff, !![0, 1; 1, 1], fun k => if k = 0 then some (.packed (Mat.pack (ff := ff) ⟨2, 2, 0, fun i j => if i = 0 ∧ j = 0 then 0 else 1⟩)) else none,
    fun k => if k = 0 then some ⟨false, 2, 2, !![0, 1; 1, 1]⟩ else none, ?_, ?_, ?_, rfl, fun k hk => if_neg (by omega)⟩
  · rw [Matrix.det_fin_two]; simp
  · intro e
    have := congrFun (congrFun e 0) 0
    simp at this
  · intro k
    by_cases hk : k = 0
    · subst hk
      refine (⟨rfl, rfl, rfl, _, pack_rep (ff := ff) _, fun i j => ?_⟩ : HoldsP (stdLib ff) (Mat.pack (ff := ff) ⟨2, 2, 0, fun i j => if i = 0 ∧ j = 0 then 0 else 1⟩) (!![0, 1; 1, 1] : Matrix (Fin 2) (Fin 2) (Elem ff)))
      fin_cases i <;> fin_cases j <;> rfl
    · simp only [hk, if_false]

end M4rie.Props
