import Verif.Model.Programs
import Verif.Props.History
import Verif.Props.Blm
import Verif.Props.Perm
import Verif.Props.Ple
import Verif.Props.PleRec

/-!
# Property C65: programs with permutations, decompositions and named algorithms
-/

namespace M4rie.Props
open M4rie M4rie.Spec

variable {pl : PLib}

/-- the permutation object `P` is `x` -/
def HoldsPerm (P : Mzp) (x : APerm) : Prop := P.length = x.n ∧ ∀ i : Fin x.n, P.val i = (x.arr i).1

/-- the variables of the program store the matrices and permutations of the abstract state -/
def PStores (pl : PLib) (c : PPool) (s : PState (Elem pl.ff)) : Prop :=
  Stores pl.toLib c.mats s.mat ∧ ∀ k, match c.perms k, s.perm k with
    | none, none => True
    | some P, some x => HoldsPerm P x
    | _, _ => False

/-- the contracts of M4RI -/
structure PLibOk (pl : PLib) : Prop extends LibOk pl.toLib where
  blm : BlmEnvOk pl.blmEnv
  fuel : pl.ff.degree * pl.ff.degree ≤ pl.fuel

/-! ### permutations -/

theorem rowPerm_take (x : APerm) {P : Nat → Nat} (hP : ∀ i : Fin x.n, P i = (x.arr i).1) (k : Nat) (hk : k ≤ x.n) (i : Fin x.n) :
    rowPerm P k i = ((((List.finRange x.n).take k).map fun i => Equiv.swap i (x.arr i)).prod i).1 := by
  induction k generalizing i with
  | zero => rfl
  | succ k ih =>
    rw [List.take_succ_eq_append_getElem (by simpa using hk), List.map_append, List.prod_append]
    simp only [List.getElem_finRange, List.map_cons, List.map_nil, List.prod_cons, List.prod_nil, mul_one, Equiv.Perm.coe_mul, Function.comp]
    rw [rowPerm, Equiv.Perm.coe_mul, Function.comp]
    have : Equiv.swap k (P k) i.1 = (Equiv.swap (⟨k, hk⟩ : Fin x.n) (x.arr ⟨k, hk⟩) i).1 := by
      rw [← swap_fin, ← hP]
    rw [this, ih (by omega)]
    rfl

theorem rowPerm_toPerm (x : APerm) {P : Nat → Nat} (hP : ∀ i : Fin x.n, P i = (x.arr i).1) (i : Fin x.n) : rowPerm P x.n i = (x.toPerm i).1 := by
  rw [rowPerm_take x hP x.n le_rfl, List.take_of_length_le (by simp)]; rfl

theorem rowPerm_toPerm_symm (x : APerm) {P : Nat → Nat} (hP : ∀ i : Fin x.n, P i = (x.arr i).1) (i : Fin x.n) :
    (rowPerm P x.n)⁻¹ i = (x.toPerm.symm i).1 := by
  rw [Equiv.Perm.inv_eq_iff_eq, rowPerm_toPerm x hP, Equiv.apply_symm_apply]

/-- an array of numbers below `n` as a permutation object -/
def aperm (n : Nat) (P : Nat → Nat) (h : ∀ i, i < n → P i < n) : APerm := ⟨n, fun i => ⟨P i, h i i.2⟩⟩

theorem aperm_at {n : Nat} {P : Nat → Nat} (h : ∀ i, i < n → P i < n) {i : Nat} (hi : i < n) : (aperm n P h).at i = P i := by
  unfold APerm.at
  rw [dif_pos (show i < (aperm n P h).n from hi)]; rfl

section ple
variable {K : Type} [Field K] {m n r : Nat} {A F : Nat → Nat → K} {X : Matrix (Fin m) (Fin n) K} {P Q : Nat → Nat}

theorem ofFin_eq_at (hX : ∀ i j, A i.1 j.1 = X i j) {i j : Nat} (hi : i < m) (hj : j < n) : ofFin X i j = A i j := by
  unfold ofFin
  rw [dif_pos ⟨hi, hj⟩, ← hX]

theorem isPLE_of_fn (hX : ∀ i j, A i.1 j.1 = X i j) (h : IsPLE m n r A F P Q) :
    IsPLE m n r (ofFin X) (ofFin (fun (a : Fin m) (b : Fin n) => F a b)) (aperm m P fun i hi => (h.perm i hi).2).at
      (aperm n Q fun i hi => (h.piv i hi).2).at where
  le := h.le
  perm i hi := by rw [aperm_at _ hi]; exact h.perm i hi
  piv i hi := by rw [aperm_at _ hi]; exact h.piv i hi
  rle := h.rle
  mono i k hik hk := by
    rw [aperm_at _ (hik.trans (lt_of_lt_of_le hk h.rle)), aperm_at _ (lt_of_lt_of_le hk h.rle)]; exact h.mono i k hik hk
  diag i hi := by rw [ofFin_eq (lt_of_lt_of_le hi h.le) (lt_of_lt_of_le hi h.rle)]; exact h.diag i hi
  prod i j hi hj := by
    rw [rowPerm_congr (P' := P) m (fun i hi => aperm_at _ hi), ofFin_eq_at hX (rowPerm_lt m le_rfl (fun i hi => (h.perm i hi).2) i hi) hj, h.prod i j hi hj]
    refine Finset.sum_congr rfl fun k hk => ?_
    have hk := Finset.mem_range.1 hk
    have h1 := h.le; have h2 := h.rle
    unfold lPart ePart
    rw [aperm_at _ (by omega)]
    congr 1
    · by_cases hki : k ≤ i
      · rw [if_pos hki, if_pos hki, ofFin_eq hi (by omega)]
      · rw [if_neg hki, if_neg hki]
    · rw [ofFin_eq (by omega) hj]
  gap i j hi hij hj := by
    have h1 := h.le; have h2 := h.rle
    rw [aperm_at _ (by omega)] at hj
    have := (h.piv i (by omega)).2
    rw [ofFin_eq (by omega) (by omega)]; exact h.gap i j hi hij hj
  rest i j h1 h2 h3 h4 := by rw [ofFin_eq h2 h4]; exact h.rest i j h1 h2 h3 h4

theorem isPLUQ_of_fn (hX : ∀ i j, A i.1 j.1 = X i j) (h : IsPLUQ m n r A F P Q) :
    IsPLUQ m n r (ofFin X) (ofFin (fun (a : Fin m) (b : Fin n) => F a b)) (aperm m P fun i hi => (h.perm i hi).2).at
      (aperm n Q fun i hi => (h.piv i hi).2).at where
  le := h.le
  perm i hi := by rw [aperm_at _ hi]; exact h.perm i hi
  piv i hi := by rw [aperm_at _ hi]; exact h.piv i hi
  rle := h.rle
  diag i hi := by rw [ofFin_eq (lt_of_lt_of_le hi h.le) (lt_of_lt_of_le hi h.rle)]; exact h.diag i hi
  prod i j hi hj := by
    rw [rowPerm_congr (P' := P) m (fun i hi => aperm_at _ hi), rowPerm_congr (P' := Q) n (fun i hi => aperm_at _ hi),
      ofFin_eq_at hX (rowPerm_lt m le_rfl (fun i hi => (h.perm i hi).2) i hi) (rowPerm_lt n le_rfl (fun i hi => (h.piv i hi).2) j hj), h.prod i j hi hj]
    refine Finset.sum_congr rfl fun k hk => ?_
    have hk := Finset.mem_range.1 hk
    have h1 := h.le; have h2 := h.rle
    unfold lPart uPart
    congr 1
    · by_cases hki : k ≤ i
      · rw [if_pos hki, if_pos hki, ofFin_eq hi (by omega)]
      · rw [if_neg hki, if_neg hki]
    · rw [ofFin_eq (by omega) hj]
  rest i j h1 h2 h3 h4 := by rw [ofFin_eq h2 h4]; exact h.rest i j h1 h2 h3 h4

end ple

/-! ### one step -/

theorem PStores.perm {c : PPool} {s : PState (Elem pl.ff)} (h : PStores pl c s) {p : Nat} {x : APerm} (hp : s.perm p = some x) :
    ∃ P, c.perms p = some P ∧ HoldsPerm P x := by
  have := h.2 p
  rw [hp] at this
  cases hc : c.perms p with
  | none => rw [hc] at this; exact this.elim
  | some P => rw [hc] at this; exact ⟨P, rfl, this⟩

theorem PStores.setPerm {c : PPool} {s : PState (Elem pl.ff)} (h : PStores pl c s) (p : Nat) {P : Mzp} {x : APerm} (hp : HoldsPerm P x) :
    PStores pl (c.setPerm p (some P)) (s.setPerm p (some x)) := by
  refine ⟨h.1, fun k => ?_⟩
  unfold PPool.setPerm PState.setPerm
  by_cases hk : k = p
  · simp only [hk, if_true]; exact hp
  · simp only [hk, if_false]; exact h.2 k

theorem PStores.unsetPerm {c : PPool} {s : PState (Elem pl.ff)} (h : PStores pl c s) (p : Nat) :
    PStores pl (c.setPerm p none) (s.setPerm p none) := by
  refine ⟨h.1, fun k => ?_⟩
  unfold PPool.setPerm PState.setPerm
  by_cases hk : k = p
  · simp only [hk, if_true]
  · simp only [hk, if_false]; exact h.2 k

theorem PStores.mats {c : PPool} {s : PState (Elem pl.ff)} (h : PStores pl c s) {c' : Pool} {m : AState (Elem pl.ff)} (h' : Stores pl.toLib c' m) :
    PStores pl { c with mats := c' } { s with mat := m } := ⟨h', h.2⟩

/-- the number of bits of an element -/
abbrev bitsOf (pl : PLib) : Nat := degreeToW pl.ff.degree

variable [IsField pl.ff]

/-- what a step has to establish -/
def PStepOk (pl : PLib) [IsField pl.ff] (c : PPool) (s : PState (Elem pl.ff)) (op : POp (Elem pl.ff)) : Prop :=
  ∃ c' out s', pcall pl c op = some (c', out) ∧ PAllowed (badScalar pl.toLib) (bitsOf pl) s op out s' ∧ PStores pl c' s' ∧ Frames pl.toLib c.mats c'.mats

/-- what the part of a step working on matrices has to establish -/
def MStep (pl : PLib) [IsField pl.ff] (c : Pool) (s : AState (Elem pl.ff)) (res : Option (Pool × Out (Elem pl.ff)))
    (al : Out (Elem pl.ff) → AState (Elem pl.ff) → Prop) : Prop :=
  ∃ c' out s', res = some (c', out) ∧ al out s' ∧ Stores pl.toLib c' s' ∧ Frames pl.toLib c c'

section mstep
variable {c : Pool} {s : AState (Elem pl.ff)} {res : Option (Pool × Out (Elem pl.ff))} {al : Out (Elem pl.ff) → AState (Elem pl.ff) → Prop}

theorem MStep.put {d : Nat} {o : Obj} {X : AMat (Elem pl.ff)} {out : Out (Elem pl.ff)} (h : Stores pl.toLib c s)
    (hcall : res = some (c.set d (some o), out)) (hal : al out (s.set d (some X))) (ho : Holds pl.toLib o X)
    (hf : ∀ o0, c d = some o0 → Frame pl.toLib o0 o) : MStep pl c s res al :=
  ⟨_, _, _, hcall, hal, h.set d ho, fun k o0 o1 h0 h1 => by
    unfold Pool.set at h1
    by_cases hk : k = d
    · rw [if_pos hk] at h1
      cases h1
      exact hf o0 (hk ▸ h0)
    · rw [if_neg hk, h0] at h1
      cases h1
      exact Frame.refl o0⟩

theorem MStep.inP {d m n : Nat} {A R : Mzed} {X Y : Matrix (Fin m) (Fin n) (Elem pl.ff)} {out : Out (Elem pl.ff)}
    {M N : Nat → Nat → Elem pl.ff} (h : Stores pl.toLib c s) (e : c d = some (.packed A)) (H : HoldsP pl.toLib A X) (hM : Rep A M)
    (hcall : res = some (c.set d (some (.packed R)), out)) (hal : al out (s.set d (some ⟨false, m, n, Y⟩))) (hd : SameDim R A) (hR : Rep R N)
    (hN : ∀ (i : Fin m) (j : Fin n), N i j = Y i j) (hf : ∀ i j, ¬ (i < A.nrows ∧ j < A.ncols) → N i j = M i j) : MStep pl c s res al :=
  MStep.put h hcall hal (HoldsP.of H hd hR hN : HoldsP pl.toLib R Y) fun o0 h0 => by
    rw [e] at h0
    cases h0
    exact ⟨hd, fun M' N' hM' hN' => by rw [hM'.unique hM, hN'.unique hR]; exact hf⟩

theorem MStep.inS {d m n : Nat} {A R : Slice} {X Y : Matrix (Fin m) (Fin n) (Elem pl.ff)} {out : Out (Elem pl.ff)}
    {M N : Nat → Nat → Elem pl.ff} (h : Stores pl.toLib c s) (e : c d = some (.sliced A)) (H : HoldsS pl.toLib A X) (hM : SRep A M)
    (hcall : res = some (c.set d (some (.sliced R)), out)) (hal : al out (s.set d (some ⟨true, m, n, Y⟩))) (hd : SSameDim R A) (hR : SRep R N)
    (hN : ∀ (i : Fin m) (j : Fin n), N i j = Y i j) (hf : ∀ i j, ¬ (i < A.nrows ∧ j < A.ncols) → N i j = M i j) : MStep pl c s res al :=
  MStep.put h hcall hal (HoldsS.of H hd hR hN : HoldsS pl.toLib R Y) fun o0 h0 => by
    rw [e] at h0
    cases h0
    exact ⟨hd, fun M' N' hM' hN' => by rw [hM'.unique hM, hN'.unique hR]; exact hf⟩

end mstep

theorem PStepOk.of_mats {c : PPool} {s : PState (Elem pl.ff)} {op : POp (Elem pl.ff)} (h : PStores pl c s) {res : Option (Pool × Out (Elem pl.ff))}
    (hcall : pcall pl c op = res.map fun r => ({ c with mats := r.1 }, r.2))
    (hm : MStep pl c.mats s.mat res fun out m => PAllowed (badScalar pl.toLib) (bitsOf pl) s op out { s with mat := m }) : PStepOk pl c s op := by
  obtain ⟨c', out, m, e, h1, h2, h3⟩ := hm
  exact ⟨_, _, _, by rw [hcall, e]; rfl, h1, h.mats h2, h3⟩

section named
variable {c : Pool} {s : AState (Elem pl.ff)} {d a b m k n : Nat}

theorem mulBy_ok (hlib : PLibOk pl) {alg : Alg} {A B C : Mzed} {MA MB MC : Nat → Nat → Elem pl.ff} (hA : Rep A MA) (hB : Rep B MB) (hC : Rep C MC)
    (hfit : Fits C A B) (hn : 0 < B.ncols) (hoff : Offered (bitsOf pl) false alg (.mul d a b : Op (Elem pl.ff))) :
    ∃ R, mulBy? pl alg C A B = some R ∧ HoldsProduct R C A.ncols MC MA MB := by
  cases alg with
  | naive => exact C20_mul_naive hA hB hC hfit.inner hfit.field hfit.fieldC hfit.rows hfit.cols
  | newtonJohn => exact C22_mul_newton_john hlib.mul.cb hlib.mul.bs hA hB hC hfit.inner hfit.field hfit.fieldC hfit.rows hfit.cols hn
  | strassen cutoff =>
    have := C23_mul_strassen hlib.mul.cb hlib.mul.bs hA hB hC hfit cutoff
    obtain ⟨R, e⟩ := this.2 hn (by rw [hB.wEq]; exact hoff)
    exact ⟨R, e, this.1 R e⟩
  | karatsuba => exact (C25_karatsuba hA hB hC hfit).1
  | blm => exact (C54_mul hlib.blm hlib.fuel hA hB hC hfit).1
  | ple => exact hoff.elim

theorem addmulBy_ok (hlib : PLibOk pl) {alg : Alg} {A B C : Mzed} {MA MB MC : Nat → Nat → Elem pl.ff} (hA : Rep A MA) (hB : Rep B MB) (hC : Rep C MC)
    (hfit : Fits C A B) (hn : 0 < B.ncols) (hoff : Offered (bitsOf pl) false alg (.addmul d a b : Op (Elem pl.ff))) :
    ∃ R, addmulBy? pl alg C A B = some R ∧ HoldsSumProduct R C A.ncols MC MA MB := by
  cases alg with
  | naive => exact C20_addmul_naive hA hB hC hfit.inner hfit.field hfit.fieldC hfit.rows hfit.cols
  | newtonJohn => exact C22_addmul_newton_john hlib.mul.cb hlib.mul.bs hA hB hC hfit.inner hfit.field hfit.fieldC hfit.rows hfit.cols hn
  | strassen cutoff =>
    have := C24_addmul_strassen hlib.mul.cb hlib.mul.bs hA hB hC hfit cutoff
    obtain ⟨R, e⟩ := this.2 hn (by rw [hB.wEq]; exact hoff)
    exact ⟨R, e, this.1 R e⟩
  | karatsuba => exact (C25_karatsuba hA hB hC hfit).2
  | blm => exact (C54_mul hlib.blm hlib.fuel hA hB hC hfit).2
  | ple => exact hoff.elim

section
variable {t : Bool} {X : Matrix (Fin m) (Fin k) (Elem pl.ff)} {Y : Matrix (Fin k) (Fin n) (Elem pl.ff)} {Z : Matrix (Fin m) (Fin n) (Elem pl.ff)}

theorem by_mul (hlib : PLibOk pl) {alg : Alg} (h : Stores pl.toLib c s) (hd : s d = some ⟨t, m, n, Z⟩) (ha : s a = some ⟨t, m, k, X⟩)
    (hb : s b = some ⟨t, k, n, Y⟩) (hda : d ≠ a) (hdb : d ≠ b) (hn : 0 < n) (hoff : Offered (bitsOf pl) t alg (.mul d a b : Op (Elem pl.ff))) :
    MStep pl c s (callBy pl c alg (.mul d a b)) (Allowed (badScalar pl.toLib) s (.mul d a b)) := by
  cases t with
  | false =>
    obtain ⟨D, e1, H1⟩ := h.packed hd
    obtain ⟨A, e2, H2⟩ := h.packed ha
    obtain ⟨B, e3, H3⟩ := h.packed hb
    obtain ⟨f1, r1, c1, M1, hM1, hX1⟩ := id H1
    obtain ⟨f2, r2, c2, M2, hM2, hX2⟩ := id H2
    obtain ⟨f3, r3, c3, M3, hM3, hX3⟩ := id H3
    obtain ⟨R, e4, h4, h5⟩ := mulBy_ok hlib hM2 hM3 hM1 ⟨by omega, by omega, by omega, by omega, by omega⟩ (by omega) hoff
    refine MStep.inP h e1 H1 hM1 (by simp only [callBy, e1, e2, e3, e4]; rfl) (.mul hd ha hb hda hdb hn) h4 h5 (fun a b => ?_)
      (by intro p q hpq; split_ifs <;> first | rfl | (exfalso; omega))
    rw [if_pos ⟨r1 ▸ a.2, c1 ▸ b.2⟩, c2]
    exact mul_of_fn hX2 hX3 a b
  | true =>
    obtain ⟨D, e1, H1⟩ := h.sliced hd
    obtain ⟨A, e2, H2⟩ := h.sliced ha
    obtain ⟨B, e3, H3⟩ := h.sliced hb
    obtain ⟨f1, r1, c1, M1, hM1, hX1⟩ := id H1
    obtain ⟨f2, r2, c2, M2, hM2, hX2⟩ := id H2
    obtain ⟨f3, r3, c3, M3, hM3, hX3⟩ := id H3
    have : ∃ R, sliceMulBy? pl alg D A B = some R ∧ SHoldsProduct R D A.ncols M1 M2 M3 := by
      cases alg with
      | blm => exact C54_slice_mul hlib.blm hlib.fuel hM2 hM3 hM1 ⟨by omega, by omega, by omega, by omega, by omega⟩
      | _ => exact hoff.elim
    obtain ⟨R, e4, h4, h5⟩ := this
    refine MStep.inS h e1 H1 hM1 (by simp only [callBy, e1, e2, e3, e4]; rfl) (.mul hd ha hb hda hdb hn) h4 h5 (fun a b => ?_)
      (by intro p q hpq; split_ifs <;> first | rfl | (exfalso; omega))
    rw [if_pos ⟨r1 ▸ a.2, c1 ▸ b.2⟩, c2]
    exact mul_of_fn hX2 hX3 a b

theorem by_addmul (hlib : PLibOk pl) {alg : Alg} (h : Stores pl.toLib c s) (hd : s d = some ⟨t, m, n, Z⟩) (ha : s a = some ⟨t, m, k, X⟩)
    (hb : s b = some ⟨t, k, n, Y⟩) (hda : d ≠ a) (hdb : d ≠ b) (hn : 0 < n) (hoff : Offered (bitsOf pl) t alg (.addmul d a b : Op (Elem pl.ff))) :
    MStep pl c s (callBy pl c alg (.addmul d a b)) (Allowed (badScalar pl.toLib) s (.addmul d a b)) := by
  cases t with
  | false =>
    obtain ⟨D, e1, H1⟩ := h.packed hd
    obtain ⟨A, e2, H2⟩ := h.packed ha
    obtain ⟨B, e3, H3⟩ := h.packed hb
    obtain ⟨f1, r1, c1, M1, hM1, hX1⟩ := id H1
    obtain ⟨f2, r2, c2, M2, hM2, hX2⟩ := id H2
    obtain ⟨f3, r3, c3, M3, hM3, hX3⟩ := id H3
    obtain ⟨R, e4, h4, h5⟩ := addmulBy_ok hlib hM2 hM3 hM1 ⟨by omega, by omega, by omega, by omega, by omega⟩ (by omega) hoff
    refine MStep.inP h e1 H1 hM1 (by simp only [callBy, e1, e2, e3, e4]; rfl) (.addmul hd ha hb hda hdb hn) h4 h5 (fun a b => ?_)
      (by intro p q hpq; split_ifs <;> first | rfl | (exfalso; omega))
    rw [if_pos ⟨r1 ▸ a.2, c1 ▸ b.2⟩, c2, hX1]
    exact congrArg (Z a b + ·) (mul_of_fn hX2 hX3 a b)
  | true =>
    obtain ⟨D, e1, H1⟩ := h.sliced hd
    obtain ⟨A, e2, H2⟩ := h.sliced ha
    obtain ⟨B, e3, H3⟩ := h.sliced hb
    obtain ⟨f1, r1, c1, M1, hM1, hX1⟩ := id H1
    obtain ⟨f2, r2, c2, M2, hM2, hX2⟩ := id H2
    obtain ⟨f3, r3, c3, M3, hM3, hX3⟩ := id H3
    have : ∃ R, sliceAddmulBy? pl alg D A B = some R ∧ SHoldsSumProduct R D A.ncols M1 M2 M3 := by
      cases alg with
      | blm => exact C54_slice_addmul hlib.blm hlib.fuel hM2 hM3 hM1 ⟨by omega, by omega, by omega, by omega, by omega⟩
      | naive => exact (C28_addmul_unchecked hM2 hM3 hM1 (by omega) (by omega)).1
      | _ => exact hoff.elim
    obtain ⟨R, e4, h4, h5⟩ := this
    refine MStep.inS h e1 H1 hM1 (by simp only [callBy, e1, e2, e3, e4]; rfl) (.addmul hd ha hb hda hdb hn) h4 h5 (fun a b => ?_)
      (by intro p q hpq; split_ifs <;> first | rfl | (exfalso; omega))
    rw [if_pos ⟨r1 ▸ a.2, c1 ▸ b.2⟩, c2, hX1]
    exact congrArg (Z a b + ·) (mul_of_fn hX2 hX3 a b)

end

theorem by_echelonize (hlib : PLibOk pl) {alg : Alg} {t : Bool} {X : Matrix (Fin m) (Fin n) (Elem pl.ff)} (h : Stores pl.toLib c s) (full : Bool)
    (hd : s d = some ⟨t, m, n, X⟩) (hoff : Offered (bitsOf pl) t alg (.echelonize d full : Op (Elem pl.ff))) :
    MStep pl c s (callBy pl c alg (.echelonize d full)) (Allowed (badScalar pl.toLib) s (.echelonize d full)) := by
  cases t with
  | true => cases alg <;> exact hoff.elim
  | false =>
    obtain ⟨A, e1, H1⟩ := h.packed hd
    obtain ⟨f1, r1, c1, M1, hM1, hX1⟩ := id H1
    have : ∃ (R : Mzed) (M' : Nat → Nat → Elem pl.ff) (piv : Nat → Nat),
        echelonizeBy? pl alg A full = some (R, rank A.nrows A.ncols M1) ∧ SameDim R A ∧ Rep R M' ∧
        IsEchelon A.nrows A.ncols (rank A.nrows A.ncols M1) M' piv ∧
        (full = true → IsRref A.nrows A.ncols (rank A.nrows A.ncols M1) M' piv) ∧
        rowSpan A.nrows A.ncols M' = rowSpan A.nrows A.ncols M1 ∧ (∀ i j, A.nrows ≤ i ∨ A.ncols ≤ j → M' i j = M1 i j) := by
      cases alg with
      | naive =>
        obtain ⟨R, M', piv, e, h⟩ := C34_echelonize_naive hM1 full
        exact ⟨R, M', piv, congrArg some e, h⟩
      | newtonJohn =>
        obtain ⟨R, M', piv, e, h⟩ := C35_echelonize_newton_john hlib.cb pl.optK pl.smallNj hM1 full
        exact ⟨R, M', piv, congrArg some e, h⟩
      | ple => exact C36_echelonize_ple hlib.compress hlib.cb hM1 full
      | _ => exact hoff.elim
    obtain ⟨R, M', piv, h1, h2, h3, h4, h5, h6, hout⟩ := this
    rw [r1, c1, rank_of_fn hX1] at h1 h4 h5
    rw [r1, c1, rowSpan_of_fn hX1, rowSpan_of_fn (X := Matrix.of fun (i : Fin m) (j : Fin n) => M' i j) (fun _ _ => rfl)] at h6
    exact MStep.inP h e1 H1 hM1 (by simp only [callBy, e1, h1]; rfl) (.echelonize full piv hd (isEchelon_of_fn h4) (fun hf => isRref_of_fn (h5 hf)) h6) h2 h3 (fun _ _ => rfl)
      (fun i j hij => hout i j (by omega))

theorem by_trsmLower (hlib : PLibOk pl) {alg : Alg} {t : Bool} {L : Matrix (Fin m) (Fin m) (Elem pl.ff)} {B : Matrix (Fin m) (Fin n) (Elem pl.ff)}
    (h : Stores pl.toLib c s) (hd : s d = some ⟨t, m, n, B⟩) (ha : s a = some ⟨t, m, m, L⟩) (hda : d ≠ a) (hn : 0 < n) (hL : ∀ i, L i i ≠ 0)
    (hoff : Offered (bitsOf pl) t alg (.trsmLower a d : Op (Elem pl.ff))) :
    MStep pl c s (callBy pl c alg (.trsmLower a d)) (Allowed (badScalar pl.toLib) s (.trsmLower a d)) := by
  cases t with
  | false =>
    obtain ⟨D, e1, H1⟩ := h.packed hd
    obtain ⟨A, e2, H2⟩ := h.packed ha
    obtain ⟨f1, r1, c1, M1, hM1, hX1⟩ := id H1
    obtain ⟨f2, r2, c2, M2, hM2, hX2⟩ := id H2
    have hdiag : ∀ i, i < D.nrows → M2 i i ≠ 0 := fun i hi => by have := hL ⟨i, by omega⟩; rwa [← hX2] at this
    have : ∃ R, trsmLowerBy? pl alg A D = some R ∧ SolvedLower R D M2 M1 := by
      cases alg with
      | naive => exact ⟨_, rfl, C29_lower_naive hM2 hM1 hdiag (by omega)⟩
      | newtonJohn => exact ⟨_, rfl, C29_lower_newton_john hM2 hM1 hdiag (by omega) hlib.cb⟩
      | _ => exact hoff.elim
    obtain ⟨R, e4, X, h5, h6, h7, hout⟩ := this
    rw [r1, c1] at h7
    exact MStep.inP h e1 H1 hM1 (by simp only [callBy, e1, e2, e4]; rfl) (.trsmLower hd ha hda hn hL) h6 h5 (fun i j => lower_solution hX2 hX1 hL h7 i j)
      hout
  | true =>
    obtain ⟨D, e1, H1⟩ := h.sliced hd
    obtain ⟨A, e2, H2⟩ := h.sliced ha
    obtain ⟨f1, r1, c1, M1, hM1, hX1⟩ := id H1
    obtain ⟨f2, r2, c2, M2, hM2, hX2⟩ := id H2
    have hdiag : ∀ i, i < D.nrows → M2 i i ≠ 0 := fun i hi => by have := hL ⟨i, by omega⟩; rwa [← hX2] at this
    have : ∃ R, sliceTrsmLowerBy? pl alg A D = some R ∧ SSolvedLower R D M2 M1 := by
      cases alg with
      | naive => exact C29_slice_lower_naive hM2 hM1 (by omega) (by omega) hdiag (by omega)
      | newtonJohn => exact C29_slice_lower_newton_john hM2 hM1 (by omega) (by omega) hdiag (by omega) hlib.cb
      | _ => exact hoff.elim
    obtain ⟨R, e4, X, h5, h6, h7, hout⟩ := this
    rw [r1, c1] at h7
    exact MStep.inS h e1 H1 hM1 (by simp only [callBy, e1, e2, e4]; rfl) (.trsmLower hd ha hda hn hL) h6 h5 (fun i j => lower_solution hX2 hX1 hL h7 i j)
      hout

theorem by_trsmUpper (hlib : PLibOk pl) {alg : Alg} {t : Bool} {L : Matrix (Fin m) (Fin m) (Elem pl.ff)} {B : Matrix (Fin m) (Fin n) (Elem pl.ff)}
    (h : Stores pl.toLib c s) (hd : s d = some ⟨t, m, n, B⟩) (ha : s a = some ⟨t, m, m, L⟩) (hda : d ≠ a) (hn : 0 < n) (hL : ∀ i, L i i ≠ 0)
    (hoff : Offered (bitsOf pl) t alg (.trsmUpper a d : Op (Elem pl.ff))) :
    MStep pl c s (callBy pl c alg (.trsmUpper a d)) (Allowed (badScalar pl.toLib) s (.trsmUpper a d)) := by
  cases t with
  | false =>
    obtain ⟨D, e1, H1⟩ := h.packed hd
    obtain ⟨A, e2, H2⟩ := h.packed ha
    obtain ⟨f1, r1, c1, M1, hM1, hX1⟩ := id H1
    obtain ⟨f2, r2, c2, M2, hM2, hX2⟩ := id H2
    have hdiag : ∀ i, i < D.nrows → M2 i i ≠ 0 := fun i hi => by have := hL ⟨i, by omega⟩; rwa [← hX2] at this
    have : ∃ R, trsmUpperBy? pl alg A D = some R ∧ SolvedUpper R D M2 M1 := by
      cases alg with
      | naive => exact ⟨_, rfl, C29_upper_naive hM2 hM1 hdiag (by omega)⟩
      | newtonJohn => exact ⟨_, rfl, C29_upper_newton_john hM2 hM1 hdiag (by omega) hlib.cb⟩
      | _ => exact hoff.elim
    obtain ⟨R, e4, X, h5, h6, h7, hout⟩ := this
    rw [r1, c1] at h7
    exact MStep.inP h e1 H1 hM1 (by simp only [callBy, e1, e2, e4]; rfl) (.trsmUpper hd ha hda hn hL) h6 h5 (fun i j => upper_solution hX2 hX1 hL h7 i j)
      hout
  | true =>
    obtain ⟨D, e1, H1⟩ := h.sliced hd
    obtain ⟨A, e2, H2⟩ := h.sliced ha
    obtain ⟨f1, r1, c1, M1, hM1, hX1⟩ := id H1
    obtain ⟨f2, r2, c2, M2, hM2, hX2⟩ := id H2
    have hdiag : ∀ i, i < D.nrows → M2 i i ≠ 0 := fun i hi => by have := hL ⟨i, by omega⟩; rwa [← hX2] at this
    have : ∃ R, sliceTrsmUpperBy? pl alg A D = some R ∧ SSolvedUpper R D M2 M1 := by
      cases alg with
      | naive => exact C29_slice_upper_naive hM2 hM1 (by omega) (by omega) hdiag (by omega)
      | newtonJohn => exact C29_slice_upper_newton_john hM2 hM1 (by omega) (by omega) hdiag (by omega) hlib.cb
      | _ => exact hoff.elim
    obtain ⟨R, e4, X, h5, h6, h7, hout⟩ := this
    rw [r1, c1] at h7
    exact MStep.inS h e1 H1 hM1 (by simp only [callBy, e1, e2, e4]; rfl) (.trsmUpper hd ha hda hn hL) h6 h5 (fun i j => upper_solution hX2 hX1 hL h7 i j)
      hout

/-- an operation done by an algorithm asked for by name -/
theorem step_by (hlib : PLibOk pl) {alg : Alg} {op : Op (Elem pl.ff)} {X : AMat (Elem pl.ff)} (h : Stores pl.toLib c s)
    (hX : s (subject op) = some X) (hoff : Offered (bitsOf pl) X.sliced alg op) (hop : MayCall (badScalar pl.toLib) s op) :
    MStep pl c s (callBy pl c alg op) (Allowed (badScalar pl.toLib) s op) := by
  obtain ⟨out, s', hop⟩ := hop
  cases hop with
  | mul hd ha hb hda hdb hn =>
    obtain rfl : _ = X := Option.some.inj (hd.symm.trans hX)
    exact by_mul hlib h hd ha hb hda hdb hn hoff
  | addmul hd ha hb hda hdb hn =>
    obtain rfl : _ = X := Option.some.inj (hd.symm.trans hX)
    exact by_addmul hlib h hd ha hb hda hdb hn hoff
  | echelonize full piv hd _ _ _ =>
    obtain rfl : _ = X := Option.some.inj (hd.symm.trans hX)
    exact by_echelonize hlib h full hd hoff
  | trsmLower hd ha hda hn hL =>
    obtain rfl : _ = X := Option.some.inj (hd.symm.trans hX)
    exact by_trsmLower hlib h hd ha hda hn hL hoff
  | trsmUpper hd ha hda hn hL =>
    obtain rfl : _ = X := Option.some.inj (hd.symm.trans hX)
    exact by_trsmUpper hlib h hd ha hda hn hL hoff
  | _ => cases hXs : X.sliced <;> rw [hXs] at hoff <;> cases alg <;> exact hoff.elim

end named

section perms
variable {c : PPool} {s : PState (Elem pl.ff)} {d p q m n : Nat} {t : Bool}

theorem step_permInit (h : PStores pl c s) (p n : Nat) (hp : s.perm p = none) : PStepOk pl c s (.permInit p n) :=
  ⟨_, _, _, rfl, .permInit p n hp, h.setPerm p ⟨rfl, fun _ => rfl⟩, Frames.refl c.mats⟩

theorem step_permFree (h : PStores pl c s) (p : Nat) {x : APerm} (hp : s.perm p = some x) : PStepOk pl c s (.permFree p) :=
  ⟨_, _, _, rfl, .permFree p hp, h.unsetPerm p, Frames.refl c.mats⟩

section apply
variable {x : APerm}

theorem rows_ok {P : Mzp} {M : Nat → Nat → Elem pl.ff} {X : Matrix (Fin x.n) (Fin n) (Elem pl.ff)} (hX : ∀ i j, M i.1 j.1 = X i j) (hP : HoldsPerm P x)
    (i : Fin x.n) (j : Fin n) : rowsOf n (rowPerm P.val x.n) M i j = X.submatrix x.toPerm id i j ∧
      rowsOf n (rowPerm P.val x.n)⁻¹ M i j = X.submatrix x.toPerm.symm id i j := by
  unfold rowsOf
  rw [if_pos j.2, if_pos j.2, rowPerm_toPerm x hP.2, rowPerm_toPerm_symm x hP.2, hX, hX]
  exact ⟨rfl, rfl⟩

theorem cols_ok {P : Mzp} {M : Nat → Nat → Elem pl.ff} {X : Matrix (Fin m) (Fin x.n) (Elem pl.ff)} (hX : ∀ i j, M i.1 j.1 = X i j) (hP : HoldsPerm P x)
    (i : Fin m) (j : Fin x.n) : colsOf m (rowPerm P.val x.n) M i j = X.submatrix id x.toPerm i j ∧
      colsOf m (rowPerm P.val x.n)⁻¹ M i j = X.submatrix id x.toPerm.symm i j := by
  unfold colsOf
  rw [if_pos i.2, if_pos i.2, rowPerm_toPerm x hP.2, rowPerm_toPerm_symm x hP.2, hX, hX]
  exact ⟨rfl, rfl⟩

theorem HoldsPerm.lt {P : Mzp} (hP : HoldsPerm P x) (i : Nat) (hi : i < x.n) : P.val i < x.n := by
  have := hP.2 ⟨i, hi⟩
  show P.val i < x.n
  rw [show P.val i = _ from this]
  exact (x.arr ⟨i, hi⟩).2

theorem rows_frame {P : Mzp} {M : Nat → Nat → Elem pl.ff} (hP : HoldsPerm P x) (i j : Nat) (h : ¬ (i < x.n ∧ j < n)) :
    rowsOf n (rowPerm P.val x.n) M i j = M i j ∧ rowsOf n (rowPerm P.val x.n)⁻¹ M i j = M i j := by
  unfold rowsOf
  by_cases hj : j < n
  · have := (C38_permutes le_rfl hP.lt i).2 (by omega)
    rw [if_pos hj, if_pos hj, this.1, this.2]
    exact ⟨rfl, rfl⟩
  · rw [if_neg hj, if_neg hj]
    exact ⟨rfl, rfl⟩

theorem cols_frame {P : Mzp} {M : Nat → Nat → Elem pl.ff} (hP : HoldsPerm P x) (i j : Nat) (h : ¬ (i < m ∧ j < x.n)) :
    colsOf m (rowPerm P.val x.n) M i j = M i j ∧ colsOf m (rowPerm P.val x.n)⁻¹ M i j = M i j := by
  unfold colsOf
  by_cases hi : i < m
  · have := (C38_permutes le_rfl hP.lt j).2 (by omega)
    rw [if_pos hi, if_pos hi, this.1, this.2]
    exact ⟨rfl, rfl⟩
  · rw [if_neg hi, if_neg hi]
    exact ⟨rfl, rfl⟩

theorem PStepOk.apply {op : POp (Elem pl.ff)} {f : Mzed → Mzp → Mzed} {g : Slice → Mzp → Slice} {Y : Matrix (Fin m) (Fin n) (Elem pl.ff)}
    {X : Matrix (Fin m) (Fin n) (Elem pl.ff)} (h : PStores pl c s) (hp : s.perm p = some x) (hd : s.mat d = some ⟨t, m, n, X⟩)
    (hcall : pcall pl c op = applyBy c d p f g)
    (hf : ∀ (P : Mzp) (A : Mzed) (M : Nat → Nat → Elem pl.ff), HoldsPerm P x → A.nrows = m → A.ncols = n → Rep A M → (∀ i j, M i.1 j.1 = X i j) →
      ∃ N : Nat → Nat → Elem pl.ff, SameDim (f A P) A ∧ Rep (f A P) N ∧ (∀ (i : Fin m) (j : Fin n), N i j = Y i j) ∧ ∀ i j, ¬ (i < m ∧ j < n) → N i j = M i j)
    (hg : ∀ (P : Mzp) (A : Slice) (M : Nat → Nat → Elem pl.ff), HoldsPerm P x → A.nrows = m → A.ncols = n → SRep A M → (∀ i j, M i.1 j.1 = X i j) →
      ∃ N : Nat → Nat → Elem pl.ff, SSameDim (g A P) A ∧ SRep (g A P) N ∧ (∀ (i : Fin m) (j : Fin n), N i j = Y i j) ∧ ∀ i j, ¬ (i < m ∧ j < n) → N i j = M i j)
    (hal : PAllowed (badScalar pl.toLib) (bitsOf pl) s op .unit (s.setMat d (some ⟨t, m, n, Y⟩))) : PStepOk pl c s op := by
  obtain ⟨P, ep, HP⟩ := h.perm hp
  cases t with
  | false =>
    obtain ⟨A, e, H⟩ := h.1.packed hd
    obtain ⟨f1, r1, c1, M, hM, hX⟩ := id H
    obtain ⟨N, h1, h2, h3, h4⟩ := hf P A M HP r1 c1 hM hX
    exact PStepOk.of_mats h (res := some (c.mats.set d (some (.packed (f A P))), .unit)) (by rw [hcall]; simp only [applyBy, e, ep]; rfl)
      (MStep.inP h.1 e H hM rfl hal h1 h2 h3 (by rw [r1, c1]; exact h4))
  | true =>
    obtain ⟨A, e, H⟩ := h.1.sliced hd
    obtain ⟨f1, r1, c1, M, hM, hX⟩ := id H
    obtain ⟨N, h1, h2, h3, h4⟩ := hg P A M HP r1 c1 hM hX
    exact PStepOk.of_mats h (res := some (c.mats.set d (some (.sliced (g A P))), .unit)) (by rw [hcall]; simp only [applyBy, e, ep]; rfl)
      (MStep.inS h.1 e H hM rfl hal h1 h2 h3 (by rw [r1, c1]; exact h4))

theorem step_applyLeft {X : Matrix (Fin x.n) (Fin n) (Elem pl.ff)} (h : PStores pl c s) (hp : s.perm p = some x) (hd : s.mat d = some ⟨t, x.n, n, X⟩) :
    PStepOk pl c s (.applyLeft d p) := by
  refine PStepOk.apply h hp hd rfl (fun P A M hP hr hc hM hX => ?_) (fun P A M hP hr hc hM hX => ?_) (.applyLeft hp hd)
  · obtain ⟨h1, h2⟩ := C38_left hM P
    rw [hP.1, hr, hc, min_self] at h2
    exact ⟨_, h1, h2, fun i j => (rows_ok hX hP i j).1, fun i j hij => (rows_frame hP i j hij).1⟩
  · obtain ⟨h1, h2⟩ := (C38_slice hM P).1
    rw [hP.1, hr, hc, min_self] at h2
    exact ⟨_, h1, h2, fun i j => (rows_ok hX hP i j).1, fun i j hij => (rows_frame hP i j hij).1⟩

theorem step_applyLeftTrans {X : Matrix (Fin x.n) (Fin n) (Elem pl.ff)} (h : PStores pl c s) (hp : s.perm p = some x) (hd : s.mat d = some ⟨t, x.n, n, X⟩) :
    PStepOk pl c s (.applyLeftTrans d p) := by
  refine PStepOk.apply h hp hd rfl (fun P A M hP hr hc hM hX => ?_) (fun P A M hP hr hc hM hX => ?_) (.applyLeftTrans hp hd)
  · obtain ⟨h1, h2⟩ := C38_left_trans hM P
    rw [hP.1, hr, hc, min_self] at h2
    exact ⟨_, h1, h2, fun i j => (rows_ok hX hP i j).2, fun i j hij => (rows_frame hP i j hij).2⟩
  · obtain ⟨h1, h2⟩ := (C38_slice hM P).2.1
    rw [hP.1, hr, hc, min_self] at h2
    exact ⟨_, h1, h2, fun i j => (rows_ok hX hP i j).2, fun i j hij => (rows_frame hP i j hij).2⟩

theorem step_applyRight {X : Matrix (Fin m) (Fin x.n) (Elem pl.ff)} (h : PStores pl c s) (hp : s.perm p = some x) (hd : s.mat d = some ⟨t, m, x.n, X⟩) :
    PStepOk pl c s (.applyRight d p) := by
  refine PStepOk.apply h hp hd rfl (fun P A M hP hr hc hM hX => ?_) (fun P A M hP hr hc hM hX => ?_) (.applyRight hp hd)
  · obtain ⟨h1, h2⟩ := C38_right hM P
    rw [hP.1, hr, hc, min_self] at h2
    exact ⟨_, h1, h2, fun i j => (cols_ok hX hP i j).2, fun i j hij => (cols_frame hP i j hij).2⟩
  · obtain ⟨h1, h2⟩ := (C38_slice hM P).2.2.2
    rw [hP.1, hr, hc, min_self] at h2
    exact ⟨_, h1, h2, fun i j => (cols_ok hX hP i j).2, fun i j hij => (cols_frame hP i j hij).2⟩

theorem step_applyRightTrans {X : Matrix (Fin m) (Fin x.n) (Elem pl.ff)} (h : PStores pl c s) (hp : s.perm p = some x)
    (hd : s.mat d = some ⟨t, m, x.n, X⟩) : PStepOk pl c s (.applyRightTrans d p) := by
  refine PStepOk.apply h hp hd rfl (fun P A M hP hr hc hM hX => ?_) (fun P A M hP hr hc hM hX => ?_) (.applyRightTrans hp hd)
  · obtain ⟨h1, h2⟩ := C38_right_trans hM P
    rw [hP.1, hr, hc, min_self] at h2
    exact ⟨_, h1, h2, fun i j => (cols_ok hX hP i j).1, fun i j hij => (cols_frame hP i j hij).1⟩
  · obtain ⟨h1, h2⟩ := (C38_slice hM P).2.2.1
    rw [hP.1, hr, hc, min_self] at h2
    exact ⟨_, h1, h2, fun i j => (cols_ok hX hP i j).1, fun i j hij => (cols_frame hP i j hij).1⟩

end apply

/-! ### decompositions -/

section ple
variable {x y : APerm} {X : Matrix (Fin x.n) (Fin y.n) (Elem pl.ff)}

theorem PStepOk.putPle {op : POp (Elem pl.ff)} {Y : Matrix (Fin m) (Fin n) (Elem pl.ff)} {o o' : Obj} {P Q : Mzp} {x' y' : APerm} {r : Nat} {t : Bool}
    (h : PStores pl c s) (e : c.mats d = some o) (hcall : pcall pl c op = some (putPle c d p q (o', P, Q, r)))
    (hal : PAllowed (badScalar pl.toLib) (bitsOf pl) s op (.num r) (((s.setMat d (some ⟨t, m, n, Y⟩)).setPerm p (some x')).setPerm q (some y')))
    (ho : Holds pl.toLib o' ⟨t, m, n, Y⟩) (hf : Frame pl.toLib o o') (hP : HoldsPerm P x') (hQ : HoldsPerm Q y') : PStepOk pl c s op :=
  ⟨_, _, _, hcall, hal, (PStores.setPerm (PStores.setPerm (h.mats (h.1.set d ho)) p hP) q hQ), fun k o0 o1 h0 h1 => by
    change (if k = d then some o' else c.mats k) = some o1 at h1
    by_cases hk : k = d
    · rw [if_pos hk] at h1
      cases h1
      rw [hk, e] at h0
      cases h0
      exact hf
    · rw [if_neg hk, h0] at h1
      cases h1
      exact Frame.refl o0⟩

/-- the packed decompositions -/
theorem step_plePacked {op : POp (Elem pl.ff)} (h : PStores pl c s) (hp : s.perm p = some x) (hq : s.perm q = some y)
    (hd : s.mat d = some ⟨false, x.n, y.n, X⟩)
    (hcall : ∀ A P Q, c.mats d = some (.packed A) → c.perms p = some P → c.perms q = some Q → ∀ M : Nat → Nat → Elem pl.ff, Rep A M →
      ∃ res, pcall pl c op = some (putPle c d p q (mzpOf P Q res)) ∧ DecomposedPLE A M P.val Q.val res)
    (hal : ∀ (x' y' : APerm) (F : Matrix (Fin x.n) (Fin y.n) (Elem pl.ff)), x'.n = x.n → y'.n = y.n →
      IsPLE x.n y.n X.rank (ofFin X) (ofFin F) x'.at y'.at →
      PAllowed (badScalar pl.toLib) (bitsOf pl) s op (.num X.rank) (((s.setMat d (some ⟨false, x.n, y.n, F⟩)).setPerm p (some x')).setPerm q (some y'))) :
    PStepOk pl c s op := by
  obtain ⟨P, ep, HP⟩ := h.perm hp
  obtain ⟨Q, eq, HQ⟩ := h.perm hq
  obtain ⟨A, e, H⟩ := h.1.packed hd
  obtain ⟨f1, r1, c1, M, hM, hX⟩ := id H
  obtain ⟨_, h1, R, F, P', Q', rfl, h3, h4, h5, -, -, h8, h9, h10⟩ := hcall A P Q e ep eq M hM
  rw [r1, c1, rank_of_fn hX] at h5
  rw [r1, c1, rank_of_fn hX] at h1
  refine PStepOk.putPle h e h1 (hal (aperm _ P' _) (aperm _ Q' _) _ rfl rfl (isPLE_of_fn hX h5)) (HoldsP.of H h3 h4 (fun _ _ => rfl) : HoldsP pl.toLib R _) ?_ ⟨HP.1, fun _ => rfl⟩ ⟨HQ.1, fun _ => rfl⟩
  exact ⟨h3, fun M' N' hM' hN' => by rw [hM'.unique hM, hN'.unique h4]; exact h8⟩

theorem step_decompose (hlib : PLibOk pl) (h : PStores pl c s) (hpq : p ≠ q) (hp : s.perm p = some x) (hq : s.perm q = some y)
    (hd : s.mat d = some ⟨t, x.n, y.n, X⟩) : PStepOk pl c s (.decompose d p q) := by
  cases t with
  | false =>
    refine step_plePacked h hp hq hd (fun A P Q e ep eq M hM => ?_) (fun x' y' F h1 h2 h3 => .decompose hpq hp hq hd h1 h2 h3)
    obtain ⟨res, e1, h1⟩ := C33_ple_entry hlib.compress hlib.cb pl.l2 hM P.val Q.val
    exact ⟨res, by simp only [pcall, e, ep, eq, e1]; rfl, h1⟩
  | true =>
    obtain ⟨P, ep, HP⟩ := h.perm hp
    obtain ⟨Q, eq, HQ⟩ := h.perm hq
    obtain ⟨A, e, H⟩ := h.1.sliced hd
    obtain ⟨f1, r1, c1, M, hM, hX⟩ := id H
    obtain ⟨R, P', Q', r, h1, hl1, hl2, R', F, P'', Q'', he, h3, h4, h5, -, -, h8, h9, h10⟩ :=
      C33_slice_ple_entry hlib.compress hlib.cb pl.l2 hM P Q (by rw [HP.1, r1]) (by rw [HQ.1, c1])
    cases he
    rw [r1, c1, rank_of_fn hX] at h5
    rw [r1, c1, rank_of_fn hX] at h1
    refine PStepOk.putPle h e (o' := .sliced R) (by simp only [pcall, e, ep, eq, h1]; rfl) (.decompose hpq hp hq hd (x' := aperm _ _ _) (y' := aperm _ _ _) rfl rfl (isPLE_of_fn hX h5))
      (HoldsS.of H h3 h4 (fun _ _ => rfl) : HoldsS pl.toLib R _) ?_ ⟨hl1.trans r1, fun _ => rfl⟩ ⟨hl2.trans c1, fun _ => rfl⟩
    exact ⟨h3, fun M' N' hM' hN' => by rw [hM'.unique hM, hN'.unique h4]; exact h8⟩

theorem step_decomposeBy (hlib : PLibOk pl) {alg : Alg} (halg : alg = .naive ∨ alg = .newtonJohn) (h : PStores pl c s) (hpq : p ≠ q)
    (hp : s.perm p = some x) (hq : s.perm q = some y) (hd : s.mat d = some ⟨false, x.n, y.n, X⟩) : PStepOk pl c s (.decomposeBy alg d p q) := by
  refine step_plePacked h hp hq hd (fun A P Q e ep eq M hM => ?_) (fun x' y' F h1 h2 h3 => .decomposeBy halg hpq hp hq hd h1 h2 h3)
  rcases halg with rfl | rfl
  · exact ⟨_, by simp only [pcall, e, ep, eq], C31_ple_naive hM P.val Q.val⟩
  · exact ⟨_, by simp only [pcall, e, ep, eq], C32_ple_newton_john hlib.cb hM P.val Q.val⟩

theorem step_pluq (hlib : PLibOk pl) (h : PStores pl c s) (hpq : p ≠ q) (hp : s.perm p = some x) (hq : s.perm q = some y)
    (hd : s.mat d = some ⟨true, x.n, y.n, X⟩) : PStepOk pl c s (.pluq d p q) := by
  obtain ⟨P, ep, HP⟩ := h.perm hp
  obtain ⟨Q, eq, HQ⟩ := h.perm hq
  obtain ⟨A, e, H⟩ := h.1.sliced hd
  obtain ⟨f1, r1, c1, M, hM, hX⟩ := id H
  obtain ⟨R, F, P', Q', h1, hl1, hl2, h3, h4, h5, h8⟩ :=
    C33_slice_pluq_entry hlib.compress hlib.cb pl.l2 hM P Q (by rw [HP.1, r1]) (by rw [HQ.1, c1])
  rw [r1, c1, rank_of_fn hX] at h5
  rw [r1, c1, rank_of_fn hX] at h1
  refine PStepOk.putPle h e (o' := .sliced R) (by simp only [pcall, e, ep, eq, h1]; rfl) (.pluq hpq hp hq hd (x' := aperm _ _ _) (y' := aperm _ _ _) rfl rfl (isPLUQ_of_fn hX h5))
    (HoldsS.of H h3 h4 (fun _ _ => rfl) : HoldsS pl.toLib R _) ?_ ⟨hl1.trans r1, fun _ => rfl⟩ ⟨hl2.trans c1, fun _ => rfl⟩
  exact ⟨h3, fun M' N' hM' hN' => by rw [hM'.unique hM, hN'.unique h4]; exact h8⟩

end ple

/-! ### the remaining calls -/

theorem step_rowAdd {X : Matrix (Fin m) (Fin n) (Elem pl.ff)} (h : PStores pl c s) (i j : Fin m) (hd : s.mat d = some ⟨false, m, n, X⟩) :
    PStepOk pl c s (.rowAdd d i j) := by
  obtain ⟨A, e, H⟩ := h.1.packed hd
  obtain ⟨f1, r1, c1, M, hM, hX⟩ := id H
  refine PStepOk.of_mats h (res := some (c.mats.set d (some (.packed (mzedRowAdd A i j))), .unit)) (by simp only [pcall, e]; rfl)
    (MStep.inP h.1 e H hM rfl (.rowAdd i j hd) ⟨rfl, rfl, rfl⟩ (C16_row_add hM i j) (fun a b => ?_) (fun a b hab => ?_))
  · rw [c1]
    simp only [b.2, and_true]
    by_cases ha : a = j
    · rw [if_pos (congrArg Fin.val ha), if_pos ha, hX, hX]
    · rw [if_neg (fun h => ha (Fin.ext h)), if_neg ha, hX]
  · rw [if_neg]
    rintro ⟨rfl, hb⟩
    exact hab ⟨by rw [r1]; exact j.2, hb⟩

theorem step_copyRow {a m' : Nat} {X : Matrix (Fin m) (Fin n) (Elem pl.ff)} {Y : Matrix (Fin m') (Fin n) (Elem pl.ff)} (h : PStores pl c s) (i : Fin m)
    (j : Fin m') (hd : s.mat d = some ⟨false, m, n, X⟩) (ha : s.mat a = some ⟨false, m', n, Y⟩) : PStepOk pl c s (.copyRow d i a j) := by
  obtain ⟨B, e, H⟩ := h.1.packed hd
  obtain ⟨A, e', H'⟩ := h.1.packed ha
  obtain ⟨f1, r1, c1, M, hM, hX⟩ := id H
  obtain ⟨f2, r2, c2, N, hN, hY⟩ := id H'
  refine PStepOk.of_mats h (res := some (c.mats.set d (some (.packed (mzedCopyRow B i A j))), .unit)) (by simp only [pcall, e, e']; rfl)
    (MStep.inP h.1 e H hM rfl (.copyRow i j hd ha) ⟨rfl, rfl, rfl⟩ (C16_copy_row hM hN i j) (fun a b => ?_) (fun a b hab => ?_))
  · rw [c2]
    simp only [b.2, and_true]
    by_cases ha : a = i
    · rw [if_pos (congrArg Fin.val ha), if_pos ha, hY]
    · rw [if_neg (fun h => ha (Fin.ext h)), if_neg ha, hX]
  · rw [if_neg]
    rintro ⟨rfl, hb⟩
    exact hab ⟨by rw [r1]; exact i.2, by omega⟩

theorem step_firstZeroRow {a : Nat} {X : Matrix (Fin m) (Fin n) (Elem pl.ff)} (h : PStores pl c s) (ha : s.mat a = some ⟨false, m, n, X⟩) :
    PStepOk pl c s (.firstZeroRow a) := by
  obtain ⟨A, e, H⟩ := h.1.packed ha
  obtain ⟨f1, r1, c1, M, hM, hX⟩ := id H
  obtain ⟨h1, h2, h3⟩ := C45_first_zero_row hM
  refine ⟨c, .num (mzedFirstZeroRow A), s, by simp only [pcall, e], .firstZeroRow ha (by omega) (fun i hi => ?_) (fun i hi h0 => ?_), h, Frames.refl _⟩
  · ext j
    rw [← hX]
    exact (h2 i hi (by rw [r1]; exact i.2) j (by rw [c1]; exact j.2))
  · obtain ⟨j, hj, hne⟩ := h3 (by omega)
    rw [← hi, Nat.add_sub_cancel] at hne
    have := congrFun h0 ⟨j, by omega⟩
    rw [← hX] at this
    exact hne this

theorem step_addmulScalar {a : Nat} {X Z : Matrix (Fin m) (Fin n) (Elem pl.ff)} (h : PStores pl c s) (x : Elem pl.ff)
    (hd : s.mat d = some ⟨true, m, n, Z⟩) (ha : s.mat a = some ⟨true, m, n, X⟩) (hda : d ≠ a) : PStepOk pl c s (.addmulScalar d x a) := by
  obtain ⟨D, e1, H1⟩ := h.1.sliced hd
  obtain ⟨A, e2, H2⟩ := h.1.sliced ha
  obtain ⟨f1, r1, c1, M1, hM1, hX1⟩ := id H1
  obtain ⟨f2, r2, c2, M2, hM2, hX2⟩ := id H2
  obtain ⟨R, e4, h4, h5⟩ := C46_addmul_scalar hM2 hM1 ⟨by omega, by omega, by omega⟩ x
  refine PStepOk.of_mats h (res := some (c.mats.set d (some (.sliced R)), .unit)) (by simp only [pcall, e1, e2, e4]; rfl)
    (MStep.inS h.1 e1 H1 hM1 rfl (.addmulScalar x hd ha hda) h4 h5 (fun a b => ?_) (by intro p q hpq; split_ifs <;> first | rfl | (exfalso; omega)))
  rw [if_pos ⟨r1 ▸ a.2, c1 ▸ b.2⟩, hX1, hX2]; rfl

end perms

/-- **C65** every call that the specification permits returns, with a result the specification allows, and the variables store the matrices and
permutations of the specification afterwards; outside of the matrices (padding, or the rest of the matrix a window belongs to) nothing has changed. -/
theorem C65_step (hlib : PLibOk pl) {c : PPool} {s : PState (Elem pl.ff)} (h : PStores pl c s) {op : POp (Elem pl.ff)}
    (hop : ∃ out s', PAllowed (badScalar pl.toLib) (bitsOf pl) s op out s') :
    ∃ c' out s', pcall pl c op = some (c', out) ∧ PAllowed (badScalar pl.toLib) (bitsOf pl) s op out s' ∧ PStores pl c' s' ∧
      Frames pl.toLib c.mats c'.mats := by
  obtain ⟨out, s', hop⟩ := hop
  cases hop with
  | base hop =>
    obtain ⟨c', out, m, e, h1, h2, h3⟩ := C58_step hlib.toLibOk h.1 ⟨_, _, hop⟩
    exact PStepOk.of_mats h rfl ⟨c', out, m, e, .base h1, h2, h3⟩
  | named hX hoff hop =>
    obtain ⟨c', out, m, e, h1, h2, h3⟩ := step_by hlib h.1 hX hoff ⟨_, _, hop⟩
    exact PStepOk.of_mats h rfl ⟨c', out, m, e, .named hX hoff h1, h2, h3⟩
  | permInit p n hp => exact step_permInit h p n hp
  | permFree p hp => exact step_permFree h p hp
  | applyLeft hp hd => exact step_applyLeft h hp hd
  | applyLeftTrans hp hd => exact step_applyLeftTrans h hp hd
  | applyRight hp hd => exact step_applyRight h hp hd
  | applyRightTrans hp hd => exact step_applyRightTrans h hp hd
  | decompose hpq hp hq hd _ _ _ => exact step_decompose hlib h hpq hp hq hd
  | decomposeBy halg hpq hp hq hd _ _ _ => exact step_decomposeBy hlib halg h hpq hp hq hd
  | pluq hpq hp hq hd _ _ _ => exact step_pluq hlib h hpq hp hq hd
  | rowAdd i j hd => exact step_rowAdd h i j hd
  | copyRow i j hd ha => exact step_copyRow h i j hd ha
  | firstZeroRow ha _ _ _ => exact step_firstZeroRow h ha
  | addmulScalar x hd ha hda => exact step_addmulScalar h x hd ha hda

/-- **C65** every program whose calls the specification permits runs to its end, and its results and the final contents of its variables are those of
a run of the specification. -/
theorem C65_history (hlib : PLibOk pl) : ∀ (ops : List (POp (Elem pl.ff))) {c : PPool} {s : PState (Elem pl.ff)}, PStores pl c s →
    PSafe (badScalar pl.toLib) (bitsOf pl) s ops →
    ∃ c' outs s', prunProgram pl c ops = some (c', outs) ∧ PRuns (badScalar pl.toLib) (bitsOf pl) s ops outs s' ∧ PStores pl c' s' := by
  intro ops
  induction ops with
  | nil => intro c s h _; exact ⟨c, [], s, rfl, .nil s, h⟩
  | cons op ops ih =>
    intro c s h hs
    obtain ⟨c1, out, s1, e1, h1, g1, -⟩ := C65_step hlib h hs.1
    obtain ⟨c2, outs, s2, e2, h2, g2⟩ := ih g1 (hs.2 out s1 h1)
    exact ⟨c2, out :: outs, s2, by simp only [prunProgram, e1, Option.bind_some, e2, Option.map_some], .cons h1 h2, g2⟩

end M4rie.Props
