import Verif.Props.Programs

/-!
# Property C65: solving a system of linear equations

A program built from a decomposition, a permutation and two triangular solvers.
-/

namespace M4rie.Props
open M4rie M4rie.Spec

/-- solve `A X = B`: `A` is variable 0, `B` is variable 1 and receives `X`; variable 2 and the permutations 0 and 1 are scratch space.  The echelon factor
has an implicit unit diagonal, which is written into a copy before the second triangular system is solved. -/
def solveProgram {K : Type} [Field K] (t : Bool) (n : Nat) : List (POp K) :=
  [.permInit 0 n, .permInit 1 n, .decompose 0 0 1, .applyLeft 1 0, .base (.trsmLower 0 1), .base (.init t 2 n n), .base (.copy 2 0)] ++
    (List.range n).map (fun i => .base (.writeElem 2 i i 1)) ++ [.base (.trsmUpper 2 1)]

section math
variable {K : Type} [Field K] {n k : Nat}

/-- with full rank every pivot is on the diagonal -/
theorem pivots_diag {A F : Nat → Nat → K} {P Q : Nat → Nat} (h : IsPLE n n n A F P Q) (i : Nat) (hi : i < n) : Q i = i := by
  have key : ∀ t, ∀ i, i + t + 1 = n → Q i + t < n := by
    intro t
    induction t with
    | zero => intro i hi; have := (h.piv i (by omega)).2; omega
    | succ t ih =>
      intro i hi
      have h1 := ih (i + 1) (by omega)
      have h2 := h.mono i (i + 1) (by omega) (by omega)
      omega
  have h1 := key (n - 1 - i) i (by omega)
  have h2 := (h.piv i hi).1
  omega

/-- `F` with ones on the diagonal -/
def unitDiag (F : Matrix (Fin n) (Fin n) K) : Matrix (Fin n) (Fin n) K := fun i j => if i = j then 1 else F i j

theorem ple_factors {A F : Matrix (Fin n) (Fin n) K} {x y : APerm} (hx : x.n = n) (hr : A.rank = n)
    (h : IsPLE n n A.rank (ofFin A) (ofFin F) x.at y.at) (i j : Fin n) :
    ofFin A (rowPerm x.at n i) j = (lower F * upper (unitDiag F)) i j := by
  rw [hr] at h
  rw [h.prod i j i.2 j.2, Matrix.mul_apply, Finset.sum_range]
  refine Finset.sum_congr rfl fun k _ => ?_
  unfold lPart ePart lower upper unitDiag
  rw [pivots_diag h k k.2]
  congr 1
  · exact if_congr Iff.rfl (dif_pos ⟨i.2, k.2⟩) rfl
  · by_cases h1 : j < k
    · rw [if_pos (show j.1 < k.1 from h1), if_neg (show ¬ k ≤ j by simpa using h1)]
    · rw [if_neg (show ¬ j.1 < k.1 from h1), if_pos (show k ≤ j by simpa using h1)]
      by_cases h2 : k = j
      · rw [if_pos (show j.1 = k.1 by rw [h2]), if_pos h2]
      · rw [if_neg (show ¬ j.1 = k.1 from fun h => h2 (Fin.ext h).symm), if_neg h2]
        exact dif_pos ⟨k.2, j.2⟩

theorem solution_eq {A F : Matrix (Fin n) (Fin n) K} {B : Matrix (Fin n) (Fin k) K} {σ : Equiv.Perm (Fin n)} (hA : IsUnit A.det) (hF : ∀ i, F i i ≠ 0)
    (h : A.submatrix σ id = lower F * upper (unitDiag F)) :
    (upper (unitDiag F))⁻¹ * ((lower F)⁻¹ * B.submatrix σ id) = A⁻¹ * B := by
  have hU : IsUnit (upper (unitDiag F)).det := upper_det fun i => by unfold unitDiag; rw [if_pos rfl]; exact one_ne_zero
  have hL : IsUnit (lower F).det := lower_det hF
  generalize hX : (upper (unitDiag F))⁻¹ * ((lower F)⁻¹ * B.submatrix σ id) = X
  have h1 : A.submatrix σ id * X = B.submatrix σ id := by
    rw [h, ← hX, Matrix.mul_assoc, ← Matrix.mul_assoc (upper _), Matrix.mul_nonsing_inv _ hU, Matrix.one_mul, ← Matrix.mul_assoc,
      Matrix.mul_nonsing_inv _ hL, Matrix.one_mul]
  have h2 : A * X = B := by
    ext i j
    have := congrFun (congrFun h1 (σ.symm i)) j
    rw [Matrix.mul_apply] at this
    simp only [Matrix.submatrix_apply, Equiv.apply_symm_apply, id] at this
    rw [Matrix.mul_apply]
    exact this
  rw [← h2, ← Matrix.mul_assoc, Matrix.nonsing_inv_mul _ hA, Matrix.one_mul]

end math

variable {pl : PLib} [IsField pl.ff]

theorem prun_append (pl : PLib) : ∀ (l l' : List (POp (Elem pl.ff))) (c : PPool), prunProgram pl c (l ++ l') =
    (prunProgram pl c l).bind fun p => (prunProgram pl p.1 l').map fun q => (q.1, p.2 ++ q.2)
  | [], l', c => by
    rw [List.nil_append]
    simp only [prunProgram, Option.bind_some, List.nil_append]
    exact Option.map_id'.symm
  | op :: l, l', c => by
    rw [List.cons_append]
    simp only [prunProgram, prun_append pl l l']
    cases pcall pl c op with
    | none => rfl
    | some p =>
      simp only [Option.bind_some]
      cases prunProgram pl p.1 l with
      | none => rfl
      | some q =>
        simp only [Option.map_some, Option.bind_some]
        cases prunProgram pl q.1 l' with
        | none => rfl
        | some r => rfl

/-- the program reaches a state satisfying `post` -/
def Reaches (pl : PLib) [IsField pl.ff] (c : PPool) (ops : List (POp (Elem pl.ff))) (post : PState (Elem pl.ff) → Prop) : Prop :=
  ∃ c' outs s', prunProgram pl c ops = some (c', outs) ∧ PStores pl c' s' ∧ post s'

theorem Reaches.append {c : PPool} {l l' : List (POp (Elem pl.ff))} {mid post : PState (Elem pl.ff) → Prop} (h1 : Reaches pl c l mid)
    (h2 : ∀ c' s', PStores pl c' s' → mid s' → Reaches pl c' l' post) : Reaches pl c (l ++ l') post := by
  obtain ⟨c1, o1, s1, e1, g1, m1⟩ := h1
  obtain ⟨c2, o2, s2, e2, g2, m2⟩ := h2 c1 s1 g1 m1
  exact ⟨c2, o1 ++ o2, s2, by rw [prun_append, e1, Option.bind_some, e2, Option.map_some], g2, m2⟩

theorem Reaches.cons (hlib : PLibOk pl) {c : PPool} {s : PState (Elem pl.ff)} (h : PStores pl c s) {op : POp (Elem pl.ff)} {l : List (POp (Elem pl.ff))}
    {post : PState (Elem pl.ff) → Prop} (hop : ∃ out s', PAllowed (badScalar pl.toLib) (bitsOf pl) s op out s')
    (hl : ∀ c' out s', PStores pl c' s' → PAllowed (badScalar pl.toLib) (bitsOf pl) s op out s' → Reaches pl c' l post) : Reaches pl c (op :: l) post := by
  obtain ⟨c1, out, s1, e1, h1, g1, -⟩ := C65_step hlib h hop
  obtain ⟨c2, o2, s2, e2, g2, m2⟩ := hl c1 out s1 g1 h1
  exact ⟨c2, out :: o2, s2, by simp only [prunProgram, e1, Option.bind_some, e2, Option.map_some], g2, m2⟩

theorem Reaches.base (hlib : PLibOk pl) {c : PPool} {s : PState (Elem pl.ff)} (h : PStores pl c s) {op : Op (Elem pl.ff)} {l : List (POp (Elem pl.ff))}
    {post : PState (Elem pl.ff) → Prop} {out : Out (Elem pl.ff)} {m : AState (Elem pl.ff)} (hop : Allowed (badScalar pl.toLib) s.mat op out m)
    (hne : ∀ d, op ≠ .echelonize d false)
    (hl : ∀ c', PStores pl c' { s with mat := m } → Reaches pl c' l post) : Reaches pl c (.base op :: l) post := by
  refine Reaches.cons hlib h ⟨_, _, .base hop⟩ fun c' out' s' hs h' => ?_
  cases h' with
  | base h' => rw [(allowed_unique hop h' rfl hne).2] at hl; exact hl c' hs

theorem Reaches.nil {c : PPool} {s : PState (Elem pl.ff)} (h : PStores pl c s) {post : PState (Elem pl.ff) → Prop} (hp : post s) : Reaches pl c [] post :=
  ⟨c, [], s, rfl, h, hp⟩

/-- the first `j` diagonal entries replaced by one -/
def unitDiagTo {K : Type} [Field K] {n : Nat} (F : Matrix (Fin n) (Fin n) K) (j : Nat) : Matrix (Fin n) (Fin n) K :=
  fun a b => if a = b ∧ a.1 < j then 1 else F a b

theorem reaches_diag (hlib : PLibOk pl) {n : Nat} {t : Bool} {F : Matrix (Fin n) (Fin n) (Elem pl.ff)} : ∀ (j : Nat), j ≤ n → ∀ {c : PPool} {s : PState (Elem pl.ff)},
    PStores pl c s → s.mat 2 = some ⟨t, n, n, F⟩ →
    Reaches pl c ((List.range j).map fun i => .base (.writeElem 2 i i 1)) fun s' =>
      s' = { s with mat := s.mat.set 2 (some ⟨t, n, n, unitDiagTo F j⟩) } := by
  intro j
  induction j with
  | zero =>
    intro _ c s h h2
    refine Reaches.nil h ?_
    have : unitDiagTo F 0 = F := by ext a b; unfold unitDiagTo; rw [if_neg (by omega)]
    rw [this, ← h2]
    have : s.mat.set 2 (s.mat 2) = s.mat := by
      funext k
      unfold AState.set
      split_ifs with hk
      · rw [hk]
      · rfl
    rw [this]
  | succ j ih =>
    intro hj c s h h2
    rw [List.range_succ, List.map_append, List.map_cons, List.map_nil]
    refine Reaches.append (ih (by omega) h h2) fun c' s' hs hs' => ?_
    subst hs'
    refine Reaches.base hlib hs (.writeElem (t := t) (X := unitDiagTo F j) (⟨j, hj⟩ : Fin n) ⟨j, hj⟩ 1 (set_self s.mat 2 _)) (by simp) fun c'' h'' => Reaches.nil h'' ?_
    have e1 : (fun a b : Fin n => if a = ⟨j, hj⟩ ∧ b = ⟨j, hj⟩ then (1 : Elem pl.ff) else unitDiagTo F j a b) = unitDiagTo F (j + 1) := by
      funext a b
      unfold unitDiagTo
      by_cases hab : a = b
      · subst hab
        by_cases ha : a = ⟨j, hj⟩
        · rw [if_pos ⟨ha, ha⟩, if_pos ⟨rfl, by rw [ha]; exact Nat.lt_succ_self j⟩]
        · have : a.1 ≠ j := fun h => ha (Fin.ext h)
          rw [if_neg (fun h => ha h.1)]
          by_cases hl : a.1 < j
          · rw [if_pos ⟨rfl, hl⟩, if_pos ⟨rfl, by omega⟩]
          · rw [if_neg (fun h => hl h.2), if_neg (fun h => hl (by have := h.2; omega))]
      · rw [if_neg (fun h => hab (h.1.trans h.2.symm)), if_neg (fun h => hab h.1), if_neg (fun h => hab h.1)]
    have e2 : ∀ (Y : Option (AMat (Elem pl.ff))) (Z : Option (AMat (Elem pl.ff))), (s.mat.set 2 Y).set 2 Z = s.mat.set 2 Z := by
      intro Y Z
      funext k
      unfold AState.set
      split_ifs <;> rfl
    show ({ s with mat := _ } : PState (Elem pl.ff)) = _
    rw [e2, e1]

theorem reaches_mono {c : PPool} {l : List (POp (Elem pl.ff))} {p q : PState (Elem pl.ff) → Prop} (h : Reaches pl c l p) (hpq : ∀ s, p s → q s) :
    Reaches pl c l q := by
  obtain ⟨c', o, s', e, h1, h2⟩ := h
  exact ⟨c', o, s', e, h1, hpq _ h2⟩

theorem exists_ple {c : PPool} {s : PState (Elem pl.ff)} (hlib : PLibOk pl) (h : PStores pl c s) {d p q : Nat} {t : Bool} {x y : APerm}
    {X : Matrix (Fin x.n) (Fin y.n) (Elem pl.ff)} (hpq : p ≠ q) (hp : s.perm p = some x) (hq : s.perm q = some y)
    (hd : s.mat d = some ⟨t, x.n, y.n, X⟩) : ∃ out s', PAllowed (badScalar pl.toLib) (bitsOf pl) s (.decompose d p q) out s' := by
  obtain ⟨_, out, s', -, h1, -, -⟩ := step_decompose hlib h hpq hp hq hd
  exact ⟨out, s', h1⟩

theorem decompose_inv {s s' : PState (Elem pl.ff)} {d p q : Nat} {t : Bool} {x y : APerm} {X : Matrix (Fin x.n) (Fin y.n) (Elem pl.ff)} {out : Out (Elem pl.ff)}
    (hp : s.perm p = some x) (hq : s.perm q = some y) (hd : s.mat d = some ⟨t, x.n, y.n, X⟩)
    (h : PAllowed (badScalar pl.toLib) (bitsOf pl) s (.decompose d p q) out s') : ∃ (x' y' : APerm) (F : Matrix (Fin x.n) (Fin y.n) (Elem pl.ff)),
      x'.n = x.n ∧ y'.n = y.n ∧ IsPLE x.n y.n X.rank (ofFin X) (ofFin F) x'.at y'.at ∧ out = .num X.rank ∧
      s' = ((s.setMat d (some ⟨t, x.n, y.n, F⟩)).setPerm p (some x')).setPerm q (some y') := by
  cases h with
  | decompose hpq hp' hq' hd' hx hy hple =>
    obtain rfl := Option.some.inj (hp.symm.trans hp')
    obtain rfl := Option.some.inj (hq.symm.trans hq')
    obtain ⟨rfl, -, -, hX⟩ := some_mat hd hd'
    obtain rfl := eq_of_heq hX
    exact ⟨_, _, _, hx, hy, hple, rfl, rfl⟩

theorem applyLeft_inv {s s' : PState (Elem pl.ff)} {d p n : Nat} {t : Bool} {x : APerm} {X : Matrix (Fin x.n) (Fin n) (Elem pl.ff)} {out : Out (Elem pl.ff)}
    (hp : s.perm p = some x) (hd : s.mat d = some ⟨t, x.n, n, X⟩)
    (h : PAllowed (badScalar pl.toLib) (bitsOf pl) s (.applyLeft d p) out s') : s' = s.setMat d (some ⟨t, x.n, n, X.submatrix x.toPerm id⟩) := by
  cases h with
  | applyLeft hp' hd' =>
    obtain rfl := Option.some.inj (hp.symm.trans hp')
    obtain ⟨rfl, -, rfl, hX⟩ := some_mat hd hd'
    obtain rfl := eq_of_heq hX
    rfl

theorem rowPerm_at {x : APerm} (i : Fin x.n) : rowPerm x.at x.n i = (x.toPerm i).1 :=
  rowPerm_toPerm x (fun i => by unfold APerm.at; rw [dif_pos i.2]) i

/-- **C65** (a consequence) in either representation, over every field and for every size: the program `solveProgram` returns, and leaves `A⁻¹ * B` in the
variable that held `B`, for every nonsingular `A`. -/
theorem C65_solve (hlib : PLibOk pl) {n k : Nat} (hk : 0 < k) {t : Bool} {A : Matrix (Fin n) (Fin n) (Elem pl.ff)} (hA : IsUnit A.det)
    {B : Matrix (Fin n) (Fin k) (Elem pl.ff)} {c : PPool} {s : PState (Elem pl.ff)} (h : PStores pl c s) (h0 : s.mat 0 = some ⟨t, n, n, A⟩)
    (h1 : s.mat 1 = some ⟨t, n, k, B⟩) (h2 : s.mat 2 = none) (hp : s.perm 0 = none) (hq : s.perm 1 = none) :
    ∃ c' outs s', prunProgram pl c (solveProgram t n) = some (c', outs) ∧ PStores pl c' s' ∧ s'.mat 1 = some ⟨t, n, k, A⁻¹ * B⟩ := by
  have hr : A.rank = n := by
    have := Matrix.rank_of_isUnit A ((Matrix.isUnit_iff_isUnit_det A).2 hA)
    simpa using this
  show Reaches pl c (solveProgram t n) fun s' => s'.mat 1 = some ⟨t, n, k, A⁻¹ * B⟩
  unfold solveProgram
  rw [List.append_assoc]
  refine Reaches.append (mid := fun s' => ∃ F : Matrix (Fin n) (Fin n) (Elem pl.ff), ∃ σ : Equiv.Perm (Fin n), (∀ i, F i i ≠ 0) ∧
    A.submatrix σ id = lower F * upper (unitDiag F) ∧ s'.mat 1 = some ⟨t, n, k, (lower F)⁻¹ * B.submatrix σ id⟩ ∧ s'.mat 2 = some ⟨t, n, n, F⟩) ?_ ?_
  · refine Reaches.cons hlib h ⟨_, _, .permInit 0 n hp⟩ fun c out s' hs e => ?_
    cases e with
    | permInit =>
    refine Reaches.cons hlib hs ⟨_, _, .permInit 1 n (by exact hq)⟩ fun c out s' hs e => ?_
    cases e with
    | permInit =>
    refine Reaches.cons hlib hs (exists_ple hlib hs (t := t) (x := ⟨n, id⟩) (y := ⟨n, id⟩) (X := A) (by decide) rfl rfl h0) fun c out s' hs e => ?_
    obtain ⟨x', y', F, hx, hy, hple, -, rfl⟩ := decompose_inv (s := (s.setPerm 0 (some { n := n, arr := id })).setPerm 1 (some { n := n, arr := id })) (t := t) (x := ⟨n, id⟩) (y := ⟨n, id⟩) (X := A) rfl rfl h0 e
    dsimp only at hx hy F hple
    obtain ⟨m, arr⟩ := x'
    dsimp only at hx
    subst hx
    have hF : ∀ i, F i i ≠ 0 := fun i => by
      have := hple.diag i (by rw [hr]; exact i.2)
      unfold ofFin at this
      rwa [dif_pos ⟨i.2, i.2⟩] at this
    have hfac : A.submatrix (APerm.toPerm ⟨m, arr⟩) id = lower F * upper (unitDiag F) := by
      ext i j
      have := ple_factors (x := ⟨m, arr⟩) rfl hr hple i j
      rw [rowPerm_at (x := ⟨m, arr⟩) i] at this
      unfold ofFin at this
      rw [dif_pos ⟨(APerm.toPerm ⟨m, arr⟩ i).2, j.2⟩] at this
      exact this
    refine Reaches.cons hlib hs ⟨_, _, .applyLeft (t := t) (n := k) (x := ⟨m, arr⟩) (X := B) rfl h1⟩ fun c out s' hs e => ?_
    obtain rfl := applyLeft_inv (t := t) (n := k) (x := ⟨m, arr⟩) (X := B) (by rfl) (by exact h1) e
    refine Reaches.base hlib hs (.trsmLower (t := t) (L := F) rfl rfl (by decide) hk hF) (by simp) fun c hs => ?_
    refine Reaches.base hlib hs (.init t 2 m m (by exact h2)) (by simp) fun c hs => ?_
    refine Reaches.base hlib hs (.copy (t := t) (X := 0) (Y := F) rfl rfl) (by simp) fun c hs => ?_
    exact Reaches.nil hs ⟨F, APerm.toPerm ⟨m, arr⟩, hF, hfac, rfl, rfl⟩
  · rintro c s hs ⟨F, σ, hF, hfac, hm1, hm2⟩
    refine Reaches.append (reaches_diag hlib n le_rfl hs hm2) fun c s' hs e => ?_
    subst e
    have hU : unitDiagTo F n = unitDiag F := by
      ext a b
      unfold unitDiagTo unitDiag
      simp only [a.2, and_true]
    rw [hU] at hs
    refine Reaches.base hlib hs (.trsmUpper (t := t) (U := unitDiag F) ((set_ne s.mat (d := 2) (k := 1) (some ⟨t, n, n, unitDiag F⟩) (by decide)).trans hm1) (set_self s.mat 2 (some ⟨t, n, n, unitDiag F⟩)) (by decide) hk
      (fun i => by unfold unitDiag; rw [if_pos rfl]; exact one_ne_zero)) (by simp) fun c hs => Reaches.nil hs ?_
    rw [solution_eq hA hF hfac]
    exact set_self (s.mat.set 2 (some ⟨t, n, n, unitDiag F⟩)) 1 _

/-! ### the named algorithms agree word for word -/

theorem holds_unique {o o1 o2 : Obj} {X : AMat (Elem pl.ff)} (h1 : Holds pl.toLib o1 X) (h2 : Holds pl.toLib o2 X) {Y : AMat (Elem pl.ff)}
    (h : Holds pl.toLib o Y) (f1 : Frame pl.toLib o o1) (f2 : Frame pl.toLib o o2) : o1 = o2 := by
  obtain ⟨t, m, n, X⟩ := X
  obtain ⟨t', m', n', Y⟩ := Y
  cases o with
  | packed A =>
    cases o1 with
    | sliced => exact f1.elim
    | packed R1 => cases o2 with
      | sliced => exact f2.elim
      | packed R2 =>
        cases t with
        | true => exact h1.elim
        | false =>
          cases t' with
          | true => exact h.elim
          | false =>
            obtain ⟨a1, b1, c1, M1, hM1, hX1⟩ := h1
            obtain ⟨a2, b2, c2, M2, hM2, hX2⟩ := h2
            obtain ⟨a3, b3, c3, M3, hM3, hX3⟩ := h
            have : M1 = M2 := by
              funext i j
              by_cases hij : i < A.nrows ∧ j < A.ncols
              · have hi : i < m := by rw [← b1, f1.1.nrows]; exact hij.1
                have hj : j < n := by rw [← c1, f1.1.ncols]; exact hij.2
                exact (hX1 ⟨i, hi⟩ ⟨j, hj⟩).trans (hX2 ⟨i, hi⟩ ⟨j, hj⟩).symm
              · rw [f1.2 M3 M1 hM3 hM1 i j hij, f2.2 M3 M2 hM3 hM2 i j hij]
            subst this
            rw [hM1.eq_pack', hM2.eq_pack', b1, c1, a1, b2, c2, a2]
  | sliced A =>
    cases o1 with
    | packed => exact f1.elim
    | sliced R1 => cases o2 with
      | packed => exact f2.elim
      | sliced R2 =>
        cases t with
        | false => exact h1.elim
        | true =>
          cases t' with
          | false => exact h.elim
          | true =>
            obtain ⟨a1, b1, c1, M1, hM1, hX1⟩ := h1
            obtain ⟨a2, b2, c2, M2, hM2, hX2⟩ := h2
            obtain ⟨a3, b3, c3, M3, hM3, hX3⟩ := h
            have : M1 = M2 := by
              funext i j
              by_cases hij : i < A.nrows ∧ j < A.ncols
              · have hi : i < m := by rw [← b1, f1.1.nrows]; exact hij.1
                have hj : j < n := by rw [← c1, f1.1.ncols]; exact hij.2
                exact (hX1 ⟨i, hi⟩ ⟨j, hj⟩).trans (hX2 ⟨i, hi⟩ ⟨j, hj⟩).symm
              · rw [f1.2 M3 M1 hM3 hM1 i j hij, f2.2 M3 M2 hM3 hM2 i j hij]
            subst this
            rw [hM1.eq_spack', hM2.eq_spack', b1, c1, a1, b2, c2, a2]

/-- if no variable is created, the words are determined by the matrices and by what was there before -/
theorem stores_unique {c c1 c2 : Pool} {s s' : AState (Elem pl.ff)} (h : Stores pl.toLib c s) (h1 : Stores pl.toLib c1 s') (h2 : Stores pl.toLib c2 s')
    (f1 : Frames pl.toLib c c1) (f2 : Frames pl.toLib c c2) (hs : ∀ k, s k = none → s' k = none) : c1 = c2 := by
  funext k
  cases e' : s' k with
  | none => rw [h1.none e', h2.none e']
  | some X =>
    cases e : s k with
    | none => rw [hs k e] at e'; cases e'
    | some Y =>
      have g := h k; have g1 := h1 k; have g2 := h2 k
      rw [e] at g
      rw [e'] at g1 g2
      cases ec : c k with
      | none => rw [ec] at g; exact g.elim
      | some o => cases ec1 : c1 k with
        | none => rw [ec1] at g1; exact g1.elim
        | some o1 => cases ec2 : c2 k with
          | none => rw [ec2] at g2; exact g2.elim
          | some o2 =>
            rw [ec] at g; rw [ec1] at g1; rw [ec2] at g2
            exact congrArg some (holds_unique g1 g2 g (f1 k o o1 ec ec1) (f2 k o o2 ec ec2))

/-- **C65** every algorithm that can be asked for by name leaves, word for word, the same memory behind as the default one, and returns the same
number - except for the echelon form that is not reduced, which is not determined by its input. -/
theorem C65_same_words (hlib : PLibOk pl) {c : Pool} {s : AState (Elem pl.ff)} {alg : Alg} {op : Op (Elem pl.ff)} {X : AMat (Elem pl.ff)}
    (h : Stores pl.toLib c s) (hX : s (subject op) = some X) (hoff : Offered (bitsOf pl) X.sliced alg op) (hop : MayCall (badScalar pl.toLib) s op)
    (hne : ∀ d, op ≠ .echelonize d false) : callBy pl c alg op = call pl.toLib c op := by
  obtain ⟨c1, o1, s1, e1, a1, h1, f1⟩ := step_by hlib h hX hoff hop
  obtain ⟨c2, o2, s2, e2, a2, h2, f2⟩ := C58_step hlib.toLibOk h hop
  obtain ⟨rfl, rfl⟩ := allowed_unique a1 a2 rfl hne
  have hs : ∀ k, s k = none → s1 k = none := by
    intro k hk
    have aux : ∀ (d : Nat) (Y Z : AMat (Elem pl.ff)), s d = some Y → (s.set d (some Z)) k = none := fun d Y Z hd => by
      unfold AState.set
      rw [if_neg (fun e => by rw [e, hd] at hk; cases hk)]
      exact hk
    cases a1 with
    | mul hd _ _ _ _ _ => exact aux _ _ _ hd
    | addmul hd _ _ _ _ _ => exact aux _ _ _ hd
    | echelonize _ _ hd _ _ _ => exact aux _ _ _ hd
    | trsmLower hd _ _ _ _ => exact aux _ _ _ hd
    | trsmUpper hd _ _ _ _ => exact aux _ _ _ hd
    | _ => cases hXs : X.sliced <;> rw [hXs] at hoff <;> cases alg <;> exact hoff.elim
  rw [e1, e2, stores_unique h h1 h2 f1 f2 hs]

/-- a library over a field with the standard Gray codes and environments -/
noncomputable def stdPLib (ff : Gf2e) : PLib := { stdLib ff with blmEnv := stdBlmEnv, fuel := ff.degree * ff.degree, l2 := 1 <<< 20 }

instance (ff : Gf2e) [h : IsField ff] : IsField (stdPLib ff).ff := h

theorem stdPLib_ok (ff : Gf2e) [IsField ff] : PLibOk (stdPLib ff) :=
  { mul := (stdLib_ok ff).mul, compress := (stdLib_ok ff).compress, cb := (stdLib_ok ff).cb, blm := stdBlmEnv_ok, fuel := le_rfl }

-- start with nothing: two permutations, a sliced 2 x 3 matrix with one entry set, decompose it, permute its rows back, multiply with the bilinear map
example : ∃ ff, ∃ _ : IsField ff, ff.degree = 8 ∧ PLibOk (stdPLib ff) ∧ PStores (stdPLib ff) ⟨fun _ => none, fun _ => none⟩ ⟨fun _ => none, fun _ => none⟩ ∧
    PSafe (badScalar (stdPLib ff).toLib) (bitsOf (stdPLib ff)) ⟨fun _ => none, fun _ => none⟩
      [.permInit 0 2, .permInit 1 3, .base (.init true 0 2 3), .base (.writeElem 0 1 2 (1 : Elem ff)), .decompose 0 0 1, .applyLeftTrans 0 0] := by
  obtain ⟨ff, h, hd⟩ := exists_aes
  have h0 : PStores (stdPLib ff) ⟨fun _ => none, fun _ => none⟩ ⟨fun _ => none, fun _ => none⟩ := ⟨fun _ => trivial, fun _ => trivial⟩
  refine ⟨ff, h, hd, stdPLib_ok ff, h0, ?_⟩
  refine ⟨⟨_, _, .permInit 0 2 rfl⟩, fun out s' e => ?_⟩
  cases e with
  | permInit =>
  refine ⟨⟨_, _, .permInit 1 3 rfl⟩, fun out s' e => ?_⟩
  cases e with
  | permInit =>
  refine ⟨⟨_, _, .base (.init true 0 2 3 rfl)⟩, fun out s' e => ?_⟩
  cases e with
  | base e =>
  cases e with
  | init =>
  refine ⟨⟨_, _, .base (.writeElem (t := true) (X := 0) (1 : Fin 2) (2 : Fin 3) (1 : Elem ff) rfl)⟩, fun out s' e => ?_⟩
  cases e with
  | base e =>
  obtain ⟨-, rfl⟩ := allowed_unique e (.writeElem (t := true) (X := 0) (1 : Fin 2) (2 : Fin 3) (1 : Elem ff) rfl) rfl (by simp)
  generalize hs : (fun (a : Fin 2) (b : Fin 3) => if a = 1 ∧ b = 2 then (1 : Elem ff) else (0 : Matrix (Fin 2) (Fin 3) (Elem ff)) a b) = X
  clear e
  refine ⟨?_, fun out s' e => ?_⟩
  · refine exists_ple (pl := stdPLib ff) (x := ⟨2, id⟩) (y := ⟨3, id⟩) (t := true) (X := X) (stdPLib_ok ff)
      (c := ⟨fun k => if k = 0 then some (.sliced (Mat.spack (ff := ff) ⟨2, 3, 0, ofFin X⟩)) else none,
        fun k => if k = 1 then some (mzpInit 3) else if k = 0 then some (mzpInit 2) else none⟩) ⟨fun k => ?_, fun k => ?_⟩ (by decide) rfl rfl rfl
    · by_cases hk : k = 0
      · subst hk
        exact (⟨rfl, rfl, rfl, _, spack_rep (ff := ff) _, fun i j => dif_pos (And.intro i.2 j.2)⟩ : HoldsS (stdLib ff) (Mat.spack (ff := ff) ⟨2, 3, 0, ofFin X⟩) X)
      · simp only [AState.set, PState.setPerm, hk, if_false]
    · by_cases hk1 : k = 1
      · subst hk1; exact ⟨rfl, fun _ => rfl⟩
      · by_cases hk : k = 0
        · subst hk; exact ⟨rfl, fun _ => rfl⟩
        · simp only [PState.setPerm, hk1, hk, if_false]
  · obtain ⟨x', y', F, hx, -, -, -, rfl⟩ := decompose_inv (pl := stdPLib ff) (t := true) (x := ⟨2, id⟩) (y := ⟨3, id⟩) (X := X) (by rfl) (by rfl) (by rfl) e
    obtain ⟨m, arr⟩ := x'
    dsimp only at hx
    subst hx
    exact ⟨⟨_, _, .applyLeftTrans (t := true) (x := ⟨2, arr⟩) (X := F) rfl rfl⟩, fun _ _ _ => trivial⟩

-- a nonsingular matrix that needs a row exchange, and a right-hand side, in the sliced representation over the AES field
example : ∃ ff, ∃ _ : IsField ff, ff.degree = 8 ∧ PLibOk (stdPLib ff) ∧ ∃ (A : Matrix (Fin 2) (Fin 2) (Elem ff)) (B : Matrix (Fin 2) (Fin 1) (Elem ff))
    (c : PPool) (s : PState (Elem ff)), IsUnit A.det ∧ A 0 0 = 0 ∧ B ≠ 0 ∧ PStores (stdPLib ff) c s ∧ s.mat 0 = some ⟨true, 2, 2, A⟩ ∧
      s.mat 1 = some ⟨true, 2, 1, B⟩ ∧ s.mat 2 = none ∧ s.perm 0 = none ∧ s.perm 1 = none := by
  obtain ⟨ff, h, hd⟩ := exists_aes
  refine ⟨ff, h, hd, stdPLib_ok ff, !![0, 1; 1, 1], !![1; 0],
    ⟨fun k => if k = 0 then some (.sliced (Mat.spack (ff := ff) ⟨2, 2, 0, fun i j => if i = 0 ∧ j = 0 then 0 else 1⟩)) else
      if k = 1 then some (.sliced (Mat.spack (ff := ff) ⟨2, 1, 0, fun i _ => if i = 0 then 1 else 0⟩)) else none, fun _ => none⟩,
    ⟨fun k => if k = 0 then some ⟨true, 2, 2, !![0, 1; 1, 1]⟩ else if k = 1 then some ⟨true, 2, 1, !![1; 0]⟩ else none, fun _ => none⟩,
    ?_, rfl, ?_, ⟨fun k => ?_, fun _ => trivial⟩, rfl, rfl, rfl, rfl, rfl⟩
  · rw [Matrix.det_fin_two]; simp
  · intro e
    have := congrFun (congrFun e 0) 0
    simp at this
  · by_cases hk : k = 0
    · subst hk
      refine (⟨rfl, rfl, rfl, _, spack_rep (ff := ff) _, fun i j => ?_⟩ : HoldsS (stdLib ff) (Mat.spack (ff := ff) ⟨2, 2, 0, fun i j => if i = 0 ∧ j = 0 then 0 else 1⟩) (!![0, 1; 1, 1] : Matrix (Fin 2) (Fin 2) (Elem ff)))
      fin_cases i <;> fin_cases j <;> rfl
    · by_cases hk1 : k = 1
      · subst hk1
        refine (⟨rfl, rfl, rfl, _, spack_rep (ff := ff) _, fun i j => ?_⟩ : HoldsS (stdLib ff) (Mat.spack (ff := ff) ⟨2, 1, 0, fun i _ => if i = 0 then 1 else 0⟩) (!![1; 0] : Matrix (Fin 2) (Fin 1) (Elem ff)))
        fin_cases i <;> fin_cases j <;> rfl
      · simp only [hk, hk1, if_false]

end M4rie.Props
