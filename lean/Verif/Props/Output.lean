import Verif.Spec.Output
import Verif.Props.Kara
import Verif.Props.NewtonJohn

/-!
# Property C68: output arguments - NULL, given, or identical with an input

`Model/Output.lean` models the functions on a store of matrices, so that the output can be one of the inputs.
-/

namespace M4rie.Props
open M4rie M4rie.Spec M4rie.Store

variable {ff : Gf2e} [IsField ff]

theorem upd_self (s : Objs) (c : Nat) (X : Mzed) : upd s c X c = X := if_pos rfl
theorem upd_ne (s : Objs) {c k : Nat} (h : k ≠ c) (X : Mzed) : upd s c X k = s k := if_neg h
theorem upd_upd (s : Objs) (c : Nat) (X Y : Mzed) : upd (upd s c X) c Y = upd s c Y := by
  funext k; unfold upd; split_ifs <;> rfl
theorem upd_eta (s : Objs) (c : Nat) : upd s c (s c) = s := by
  funext k; unfold upd; split_ifs with h
  · rw [h]
  · rfl

/-- a loop all of whose steps change the object `c` only -/
theorem forN_upd {g : Nat → Objs → Objs} {f : Nat → Mzed → Mzed} {c : Nat} {s : Objs} (n : Nat)
    (h : ∀ i, i < n → ∀ X, g i (upd s c X) = upd s c (f i X)) : forN g n s = upd s c (forN f n (s c)) := by
  induction n with
  | zero => exact (upd_eta s c).symm
  | succ n ih =>
    show g n (forN g n s) = upd s c (f n (forN f n (s c)))
    rw [ih fun i hi => h i (by omega), h n (by omega)]

theorem forN_fix {σ : Type} {g : Nat → σ → σ} {s : σ} (n : Nat) (h : ∀ i, i < n → g i s = s) : forN g n s = s := by
  induction n with
  | zero => rfl
  | succ n ih => show g n (forN g n s) = s; rw [ih fun i hi => h i (by omega), h n (by omega)]

/-- after the output has been created (if it was `NULL`) -/
theorem receives_output {s : Objs} {c : Out} {used : List Nat} {m n : Nat} {M0 : Nat → Nat → Elem ff} {F : Mzed} (hF : F.ff = ff)
    (h : Receives s c used F.fid m n M0) : (∀ k, k ≠ c.id → Store.output s c F m n k = s k) ∧
      (∀ k ∈ used, Store.output s c F m n k = s k) ∧ Rep (Store.output s c F m n c.id) M0 ∧
      (Store.output s c F m n c.id).nrows = m ∧ (Store.output s c F m n c.id).ncols = n ∧ (Store.output s c F m n c.id).fid = F.fid := by
  cases c with
  | null k =>
    obtain ⟨h1, rfl⟩ := h
    refine ⟨fun j hj => upd_ne _ hj _, fun j hj => upd_ne _ (fun e => h1 (by have e : j = k := e; rwa [← e])) _, ?_⟩
    have : Store.output s (.null k) F m n (Out.null k).id = mzedInit ff F.fid m n := by rw [← hF]; exact upd_self ..
    rw [this]
    exact ⟨rep_init .., rfl, rfl, rfl⟩
  | given k => exact ⟨fun _ _ => rfl, fun _ _ => rfl, h.1, h.2.1, h.2.2.1, h.2.2.2⟩

theorem writes_upd {s s1 : Objs} {c : Out} {fid m n : Nat} {M0 N : Nat → Nat → Elem ff} {R : Mzed} (h1 : ∀ k, k ≠ c.id → s1 k = s k)
    (hr : R.nrows = m) (hc : R.ncols = n) (hf : R.fid = fid) (h : Rep R (fun i j => if i < m ∧ j < n then N i j else M0 i j)) :
    Writes s (upd s1 c.id R) c fid m n M0 N :=
  ⟨fun k hk => by rw [upd_ne _ hk]; exact h1 k hk, by rw [upd_self]; exact hr, by rw [upd_self]; exact hc, by rw [upd_self]; exact hf,
    by rw [upd_self]; exact h⟩

section
variable {s : Objs} {a b : Nat} {MA MB M0 : Nat → Nat → Elem ff} {c : Out}

/-- **C68** `mzed_add(C,A,B)`: `C` may be `NULL`, another matrix, `A` or `B`. -/
theorem C68_add (hA : Rep (s a) MA) (hB : Rep (s b) MB) (hd : SameDim (s b) (s a))
    (hc : Receives s c [a, b] (s a).fid (s a).nrows (s a).ncols M0) :
    ∃ s', Store.add? s c a b = some s' ∧ Writes s s' c (s a).fid (s a).nrows (s a).ncols M0 (fun i j => MA i j + MB i j) := by
  obtain ⟨o1, o2, o3, o4, o5, o6⟩ := receives_output hA.ffEq hc
  obtain ⟨R, h1, h2, h3⟩ := C17_add hA hB o3 hd ⟨o4, o5, o6⟩
  unfold mzedAdd? at h1
  rw [if_pos ⟨hd.nrows.symm, hd.ncols.symm, hd.fid.symm, o6, o4, o5⟩] at h1
  unfold Store.add?
  rw [if_neg (by have := hd.nrows; have := hd.ncols; have := hd.fid; omega)]
  simp only [o2 a (by simp), o2 b (by simp)]
  have e := Option.some.inj h1
  rw [e]
  refine ⟨_, if_neg ?_, writes_upd o1 h2.nrows h2.ncols h2.fid h3⟩
  cases c with
  | null k => exact Bool.false_ne_true
  | given k => obtain ⟨-, e1, e2, e3⟩ := hc; simp [e1, e2, e3]

/-- **C68** `mzed_copy(A,B)`: also with `A == B`. -/
theorem C68_copy (hB : Rep (s b) MB) (hc : Receives s c [b] (s b).fid (s b).nrows (s b).ncols M0) :
    ∃ s', Store.copy? s c b = some s' ∧ Writes s s' c (s b).fid (s b).nrows (s b).ncols M0 MB := by
  unfold Store.copy?
  by_cases hcb : c.id = b
  · rw [if_pos hcb]
    refine ⟨s, rfl, fun _ _ => rfl, by rw [hcb], by rw [hcb], by rw [hcb], ?_⟩
    cases c with
    | null k => exact absurd hcb (by intro e; exact hc.1 (by simp only [List.mem_singleton]; exact e))
    | given k =>
      have hk : k = b := hcb
      subst hk
      have : M0 = MB := funext fun i => funext fun j => Elem.ext' (by rw [← hc.1.read, hB.read])
      subst this
      show Rep (s k) _
      simpa using hB
  · rw [if_neg hcb]
    obtain ⟨o1, o2, o3, o4, o5, o6⟩ := receives_output hB.ffEq hc
    obtain ⟨R, h1, h2, h3⟩ := copy_rep hB o3 ⟨o4, o5, o6⟩
    simp only [o2 b (by simp), h1]
    exact ⟨_, rfl, writes_upd o1 h2.nrows h2.ncols h2.fid h3⟩

theorem copy_same (B : Mzed) : mzedCopy? B B = some B := by
  unfold mzedCopy? mzdCopy
  rw [if_pos ⟨rfl, rfl, rfl⟩]
  simp only [ite_self]
  congr 1
  have : (ofBits fun i p => bitAt B.words i p) = B.words := by
    apply words_ext
    intro i p
    rw [bitAt_ofBits]
  rw [this]

/-- row `i` of `X` replaced -/
def withRow (X : Mzed) (i : Nat) (r : Nat → Word) : Mzed := { X with words := setRow X.words i r }

theorem withRow_withRow (X : Mzed) (i : Nat) (r r' : Nat → Word) : withRow (withRow X i r) i r' = withRow X i r' := by
  unfold withRow setRow
  congr 1
  funext k j
  by_cases h : k = i
  · simp only [h, if_true]
  · simp only [h, if_false]

theorem withRow_row (X : Mzed) (i : Nat) (r : Nat → Word) : (withRow X i r).words i = r := by
  unfold withRow setRow; simp

theorem withRow_other (X : Mzed) {i k : Nat} (h : k ≠ i) (r : Nat → Word) : (withRow X i r).words k = X.words k := by
  unfold withRow setRow; simp [h]

theorem withRow_eta (X : Mzed) (i : Nat) : withRow X i (X.words i) = X := by
  unfold withRow setRow
  congr 1
  funext k j
  split_ifs with h
  · rw [h]
  · rfl

theorem setWords_ge (f : Nat → Word) (r : Nat → Word) {n k : Nat} (h : n ≤ k) : forN (fun j r => setWord r j (f j)) n r k = r k := by
  induction n with
  | zero => rfl
  | succ n ih =>
    show (if k = n then f n else forN (fun j r => setWord r j (f j)) n r k) = r k
    rw [if_neg (by omega), ih (by omega)]

/-- reading word `j` of row `i` of `b` while the words of row `i` of `c` before `j` are already overwritten -/
theorem read_word {s : Objs} (c b i : Nat) {r : Nat → Word} {j : Nat} (h : r j = (s c).words i j) :
    ((upd s c (withRow (s c) i r)) b).words i j = (s b).words i j := by
  by_cases hb : b = c
  · subst hb; rw [upd_self, withRow_row, h]
  · rw [upd_ne _ hb]

theorem upd_shape {s : Objs} (c b i : Nat) {r : Nat → Word} : ((upd s c (withRow (s c) i r)) b).width = (s b).width ∧
    ((upd s c (withRow (s c) i r)) b).highBitmask = (s b).highBitmask := by
  by_cases hb : b = c
  · subst hb; rw [upd_self]; exact ⟨rfl, rfl⟩
  · rw [upd_ne _ hb]; exact ⟨rfl, rfl⟩

theorem scalarRow_store (mul : Nat → Word) {s : Objs} (c b i : Nat) (hw : (s c).width = (s b).width) :
    Store.scalarRow mul c b i s =
      upd s c (withRow (s c) i (M4rie.scalarRow mul (s c).width (s b).highBitmask ((s b).words i) ((s c).words i))) := by
  have hput : ∀ (r : Nat → Word) (j : Nat) (v : Word),
      upd (upd s c (withRow (s c) i r)) c { (upd s c (withRow (s c) i r)) c with
        words := setRow ((upd s c (withRow (s c) i r)) c).words i (setWord (((upd s c (withRow (s c) i r)) c).words i) j v) } =
      upd s c (withRow (s c) i (setWord r j v)) := by
    intro r j v
    rw [upd_self, upd_upd]
    have : ({ withRow (s c) i r with words := setRow (withRow (s c) i r).words i (setWord ((withRow (s c) i r).words i) j v) } : Mzed) =
      withRow (withRow (s c) i r) i (setWord ((withRow (s c) i r).words i) j v) := rfl
    rw [this, withRow_withRow, withRow_row]
  have hloop : ∀ n, forN (fun j s => upd s c { s c with words := setRow (s c).words i (setWord ((s c).words i) j (scalarWord mul ((s b).words i j))) }) n s =
      upd s c (withRow (s c) i (forN (fun j r => setWord r j (scalarWord mul ((s b).words i j))) n ((s c).words i))) := by
    intro n
    induction n with
    | zero => show s = _; rw [show forN _ 0 ((s c).words i) = (s c).words i from rfl, withRow_eta, upd_eta]
    | succ n ih =>
      show (fun j s => upd s c { s c with words := setRow (s c).words i (setWord ((s c).words i) j (scalarWord mul ((s b).words i j))) }) n
        (forN _ n s) = _
      rw [ih]
      simp only
      rw [hput, read_word c b i (setWords_ge _ _ (le_refl n))]
      rfl
  unfold Store.scalarRow
  simp only
  rw [hloop, (upd_shape c b i).1, (upd_shape c b i).2, read_word c b i (setWords_ge _ _ (by omega)), (upd_shape c c i).1, hput,
    (upd_shape c c i).1, hput]
  congr 2
  rw [upd_self, upd_self, withRow_row, withRow_row, ← hw]
  rfl

theorem scalarLoop_store (mul : Nat → Word) {s : Objs} (c b : Nat) (hw : (s c).width = (s b).width) (n : Nat) :
    forN (fun i s => Store.scalarRow mul c b i s) n s = upd s c (forN (fun i C =>
      { C with words := setRow C.words i (M4rie.scalarRow mul C.width (s b).highBitmask ((s b).words i) (C.words i)) }) n (s c)) := by
  have key : ∀ n, (forN (fun i (C : Mzed) => { C with words := setRow C.words i (M4rie.scalarRow mul C.width (s b).highBitmask ((s b).words i) (C.words i)) })
      n (s c)).width = (s c).width ∧ (forN (fun i (C : Mzed) => { C with words := setRow C.words i (M4rie.scalarRow mul C.width (s b).highBitmask ((s b).words i) (C.words i)) })
      n (s c)).highBitmask = (s c).highBitmask ∧ ∀ k, n ≤ k → (forN (fun i (C : Mzed) => { C with words := setRow C.words i (M4rie.scalarRow mul C.width (s b).highBitmask ((s b).words i) (C.words i)) })
      n (s c)).words k = (s c).words k := by
    intro n
    induction n with
    | zero => exact ⟨rfl, rfl, fun _ _ => rfl⟩
    | succ n ih =>
      refine ⟨ih.1, ih.2.1, fun k hk => ?_⟩
      funext j
      refine (if_neg (by omega)).trans ?_
      rw [ih.2.2 k (by omega)]
  induction n with
  | zero => exact (upd_eta s c).symm
  | succ n ih =>
    show Store.scalarRow mul c b n (forN _ n s) = _
    obtain ⟨k1, k2, k3⟩ := key n
    rw [ih]
    set V := forN (fun i (C : Mzed) => { C with words := setRow C.words i (M4rie.scalarRow mul C.width (s b).highBitmask ((s b).words i) (C.words i)) }) n (s c) with hV
    have e : (upd s c V b).width = (s b).width ∧ (upd s c V b).highBitmask = (s b).highBitmask ∧ (upd s c V b).words n = (s b).words n := by
      by_cases hb : b = c
      · subst hb; rw [upd_self]; exact ⟨k1, k2, k3 n (le_refl n)⟩
      · rw [upd_ne _ hb]; exact ⟨rfl, rfl, rfl⟩
    rw [scalarRow_store mul c b n (by rw [upd_self, e.1, k1, hw]), upd_self, upd_upd, e.2.1, e.2.2]
    rfl

/-- **C68** `mzed_mul_scalar(C,a,B)`: the in-place call `C == B` is word for word the same as a call with a copy of `B`. -/
theorem mulScalar_store {x : Word} (hA : Rep (s b) MB) (hc : Receives s c [b] (s b).fid (s b).nrows (s b).ncols M0) :
    Store.mulScalar? s c x b = (mzedMulScalar? (Store.output s c (s b) (s b).nrows (s b).ncols c.id) x (s b)).map
      (upd (Store.output s c (s b) (s b).nrows (s b).ncols) c.id) := by
  obtain ⟨o1, o2, o3, o4, o5, o6⟩ := receives_output hA.ffEq hc
  unfold Store.mulScalar? mzedMulScalar?
  set s1 := Store.output s c (s b) (s b).nrows (s b).ncols with hs1
  have eb : s1 b = s b := o2 b (by simp)
  simp only [eb]
  by_cases h1 : (s b).ff.degree > 8 ∨ (s b).nrows * (s b).ncols < 2 ^ 17
  · rw [if_pos h1, if_pos h1]
    have hcopy : Store.copy? s1 (.given c.id) b = (mzedCopy? (s1 c.id) (s b)).map (upd s1 c.id) := by
      unfold Store.copy?
      show (if c.id = b then some s1 else (mzedCopy? (s1 c.id) (s1 b)).map (upd s1 c.id)) = _
      rw [eb]
      by_cases hcb : c.id = b
      · rw [if_pos hcb]
        have : s1 c.id = s b := by rw [hcb]; exact eb
        rw [this, copy_same, Option.map_some, ← this, upd_eta]
      · rw [if_neg hcb]
    rw [hcopy]
    obtain ⟨R, r1, r2, r3⟩ := copy_rep hA o3 ⟨o4, o5, o6⟩
    rw [r1]
    simp only [Option.map_some]
    have hrows : (upd s1 c.id R b).nrows = (s b).nrows := by
      by_cases hcb : b = c.id
      · rw [hcb, upd_self, r2.nrows, hcb]
      · rw [upd_ne _ hcb, eb]
    rw [hrows, forN_upd (f := fun i C => mzedRescaleRow C i 0 x) (c := c.id), upd_self, upd_upd]
    intro i _ X
    rw [upd_upd, upd_self, upd_upd]
  · rw [if_neg h1, if_neg h1]
    by_cases h2 : (List.range (2 ^ 16)).all (fun i => (t16? (s b).ff x i).isSome)
    · rw [if_pos h2, if_pos h2, Option.map_some, scalarLoop_store _ c.id b, eb]
      show (s1 c.id).width = (s1 b).width
      rw [eb]
      unfold Mzed.width Mzed.bitCols
      rw [o3.wEq, hA.wEq, o5]
    · rw [if_neg h2, if_neg h2]; rfl

/-- **C68** `mzed_mul_scalar(C,a,B)`: `C` may be `NULL`, another matrix or `B` (the size restriction is that of C18). -/
theorem C68_mul_scalar (hB : Rep (s b) MB) (hn : 0 < (s b).ncols) (x : Elem ff)
    (hdeg : (ff.degree ≠ 3 ∧ ff.degree ≠ 5 ∧ ff.degree ≠ 6 ∧ ff.degree ≠ 7) ∨ (s b).nrows * (s b).ncols < 2 ^ 17)
    (hc : Receives s c [b] (s b).fid (s b).nrows (s b).ncols M0) :
    ∃ s', Store.mulScalar? s c x.1 b = some s' ∧ Writes s s' c (s b).fid (s b).nrows (s b).ncols M0 (fun i j => x * MB i j) := by
  obtain ⟨o1, o2, o3, o4, o5, o6⟩ := receives_output hB.ffEq hc
  obtain ⟨R, h1, h2, h3⟩ := C18_mul_scalar hB o3 ⟨o4, o5, o6⟩ hn x hdeg
  rw [mulScalar_store hB hc, h1]
  exact ⟨_, rfl, writes_upd o1 h2.nrows h2.ncols h2.fid h3⟩


/-! ### products -/

/-- after `_mzed_mul_init` -/
theorem mulInit_store (hA : Rep (s a) MA) (hk : (s a).ncols = (s b).nrows) (hf : (s a).fid = (s b).fid)
    (hc : Receives s c [a, b] (s a).fid (s a).nrows (s b).ncols M0) (clear : Bool) :
    ∃ s1, Store.mulInit? s c a b clear = some s1 ∧ (∀ k, k ≠ c.id → s1 k = s k) ∧
      (s1 c.id).nrows = (s a).nrows ∧ (s1 c.id).ncols = (s b).ncols ∧ (s1 c.id).fid = (s a).fid ∧
      Rep (s1 c.id) (fun i j => if clear = true ∧ i < (s a).nrows ∧ j < (s b).ncols then 0 else M0 i j) := by
  unfold Store.mulInit?
  rw [if_neg (by simp [hk, hf])]
  cases c with
  | null k =>
    obtain ⟨o1, o2, o3, o4, o5, o6⟩ := receives_output hA.ffEq hc
    refine ⟨_, rfl, o1, o4, o5, o6, ?_⟩
    obtain ⟨-, rfl⟩ := hc
    simpa using o3
  | given k =>
    obtain ⟨h1, h2, h3, h4⟩ := hc
    show ∃ s1, (if (s k).fid ≠ (s a).fid ∨ (s k).nrows ≠ (s a).nrows ∨ (s k).ncols ≠ (s b).ncols then none
      else if clear = true then some (upd s k (mzedSetUi (s k) 0#64)) else some s) = some s1 ∧ (∀ j, j ≠ k → s1 j = s j) ∧
      (s1 k).nrows = (s a).nrows ∧ (s1 k).ncols = (s b).ncols ∧ (s1 k).fid = (s a).fid ∧ Rep (s1 k) _
    rw [if_neg (by simp [h2, h3, h4])]
    cases clear with
    | false => exact ⟨_, rfl, fun _ _ => rfl, h2, h3, h4, by simpa using h1⟩
    | true =>
      obtain ⟨r1, r2⟩ := h1.setUi (0 : Elem ff)
      have e : (0 : Elem ff).1 = 0#64 := rfl
      rw [e] at r1 r2
      refine ⟨_, rfl, fun j hj => upd_ne _ hj _, ?_, ?_, ?_, ?_⟩
      · rw [upd_self, r2.nrows, h2]
      · rw [upd_self, r2.ncols, h3]
      · rw [upd_self, r2.fid, h4]
      · rw [upd_self]
        refine Eq.subst (motive := fun f => Rep _ f) ?_ r1
        funext i j
        simp [h2, h3]

theorem mulNaiveAcc_store {s : Objs} {c a b : Nat} (ha : c ≠ a) (hb : c ≠ b) :
    Store.mulNaiveAcc s c a b = upd s c (mzedMulNaiveAcc (s c) (s a) (s b)) := by
  unfold Store.mulNaiveAcc mzedMulNaiveAcc
  refine forN_upd _ fun i _ X => ?_
  rw [upd_self]
  have h2 := forN_upd (s := upd s c X) (c := c) (f := fun j C => forN (fun k C =>
      mzedAddElem C i j (gf2eMul C.ff (mzedReadElem (s a) i k) (mzedReadElem (s b) k j))) (s a).ncols C)
    (g := fun j s => forN (fun k s =>
      upd s c (mzedAddElem (s c) i j (gf2eMul (s c).ff (mzedReadElem (s a) i k) (mzedReadElem (s b) k j)))) (s a).ncols s) X.ncols ?_
  · rw [h2, upd_self, upd_upd]
  · intro j _ Y
    rw [upd_upd]
    have h3 := forN_upd (s := upd s c Y) (c := c) (f := fun k C =>
        mzedAddElem C i j (gf2eMul C.ff (mzedReadElem (s a) i k) (mzedReadElem (s b) k j)))
      (g := fun k s =>
        upd s c (mzedAddElem (s c) i j (gf2eMul (s c).ff (mzedReadElem (s a) i k) (mzedReadElem (s b) k j)))) (s a).ncols ?_
    · rw [upd_ne _ ha.symm, h3, upd_self, upd_upd, upd_upd]
    · intro k _ Z
      rw [upd_upd, upd_self, upd_upd, upd_upd, upd_ne _ ha.symm, upd_ne _ hb.symm, upd_upd]

/-- **C68** `mzed_mul_naive(C,A,B)` and `mzed_addmul_naive(C,A,B)`: `C` may be `NULL` or a matrix different from `A` and `B`
(`A` and `B` may be the same). -/
theorem C68_mul_naive (hA : Rep (s a) MA) (hB : Rep (s b) MB) (hk : (s a).ncols = (s b).nrows) (hf : (s a).fid = (s b).fid)
    (hc : Receives s c [a, b] (s a).fid (s a).nrows (s b).ncols M0) (ha : c.id ≠ a) (hb : c.id ≠ b) :
    (∃ s', Store.mulNaive? s c a b = some s' ∧ Writes s s' c (s a).fid (s a).nrows (s b).ncols M0
      (fun i j => ∑ t ∈ Finset.range (s a).ncols, MA i t * MB t j)) ∧
    ∃ s', Store.addmulNaive? s c a b = some s' ∧ Writes s s' c (s a).fid (s a).nrows (s b).ncols M0
      (fun i j => M0 i j + ∑ t ∈ Finset.range (s a).ncols, MA i t * MB t j) := by
  constructor
  · obtain ⟨s1, i1, i2, i3, i4, i5, i6⟩ := mulInit_store hA hk hf hc true
    unfold Store.mulNaive?
    rw [i1, Option.map_some, mulNaiveAcc_store ha hb, i2 a ha.symm, i2 b hb.symm]
    obtain ⟨r1, r2⟩ := i6.mulNaiveAcc hA hB
    refine ⟨_, rfl, writes_upd i2 (r2.nrows.trans i3) (r2.ncols.trans i4) (r2.fid.trans i5) ?_⟩
    refine Eq.subst (motive := fun f => Rep _ f) ?_ r1
    funext i j
    by_cases hij : i < (s a).nrows ∧ j < (s b).ncols
    · simp [hij, i3, i4]
    · simp [hij, i3, i4]
  · obtain ⟨s1, i1, i2, i3, i4, i5, i6⟩ := mulInit_store hA hk hf hc false
    unfold Store.addmulNaive?
    rw [i1, Option.map_some, mulNaiveAcc_store ha hb, i2 a ha.symm, i2 b hb.symm]
    obtain ⟨r1, r2⟩ := i6.mulNaiveAcc hA hB
    refine ⟨_, rfl, writes_upd i2 (r2.nrows.trans i3) (r2.ncols.trans i4) (r2.fid.trans i5) ?_⟩
    refine Eq.subst (motive := fun f => Rep _ f) ?_ r1
    funext i j
    simp [i3, i4]

theorem addmulKara_store (s : Objs) (c a b : Nat) :
    Store.addmulKara? s c a b = (mzedAddmulKara? (s c) (s a) (s b)).map (upd s c) := by
  unfold Store.addmulKara? mzedAddmulKara?
  rcases mzedSliceNew? (s c) with _ | Cs
  · rfl
  rcases mzedSliceNew? (s a) with _ | As
  · rfl
  rcases mzedSliceNew? (s b) with _ | Bs
  · rfl
  show (mzdSliceAddmulKara? Cs As Bs).bind _ = ((mzdSliceAddmulKara? Cs As Bs).bind _).map _
  rcases mzdSliceAddmulKara? Cs As Bs with _ | R
  · rfl
  rfl

theorem addmulKara_rep {A B C : Mzed} {MA MB MC : Nat → Nat → Elem ff} (hA : Rep A MA) (hB : Rep B MB) (hC : Rep C MC) (hfit : Fits C A B) :
    ∃ R, mzedAddmulKara? C A B = some R ∧ HoldsSumProduct R C A.ncols MC MA MB := by
  obtain ⟨R, h1, h2⟩ := (C25_karatsuba hA hB hC hfit).2
  unfold mzedAddmulKaratsuba? at h1
  rw [if_neg (by have := hfit.inner; have := hfit.field; tauto),
    if_neg (by have := hfit.fieldC; have := hfit.rows; have := hfit.cols; tauto)] at h1
  exact ⟨R, h1, h2⟩

/-- **C68** `mzed_addmul_karatsuba(C,A,B)`: `C` may be `NULL`, another matrix, *and also `A` or `B`*. -/
theorem C68_addmul_karatsuba (hA : Rep (s a) MA) (hB : Rep (s b) MB) (hk : (s a).ncols = (s b).nrows) (hf : (s a).fid = (s b).fid)
    (hc : Receives s c [a, b] (s a).fid (s a).nrows (s b).ncols M0) :
    ∃ s', Store.addmulKaratsuba? s c a b = some s' ∧ Writes s s' c (s a).fid (s a).nrows (s b).ncols M0
      (fun i j => M0 i j + ∑ t ∈ Finset.range (s a).ncols, MA i t * MB t j) := by
  have hs : ∃ s1, Store.mulInit? s c a b false = some s1 ∧ (∀ k, k ≠ c.id → s1 k = s k) ∧ s1 a = s a ∧ s1 b = s b ∧
      (s1 c.id).nrows = (s a).nrows ∧ (s1 c.id).ncols = (s b).ncols ∧ (s1 c.id).fid = (s a).fid ∧ Rep (s1 c.id) M0 := by
    obtain ⟨s1, i1, i2, i3, i4, i5, i6⟩ := mulInit_store hA hk hf hc false
    have i6 : Rep (s1 c.id) M0 := by simpa using i6
    cases c with
    | null k =>
      have h1 : a ≠ k := fun e => hc.1 (by simp [e])
      have h2 : b ≠ k := fun e => hc.1 (by simp [e])
      exact ⟨s1, i1, i2, i2 a h1, i2 b h2, i3, i4, i5, i6⟩
    | given k =>
      obtain ⟨h1, h2, h3, h4⟩ := hc
      refine ⟨s, ?_, fun _ _ => rfl, rfl, rfl, h2, h3, h4, h1⟩
      unfold Store.mulInit?
      rw [if_neg (by simp [hk, hf])]
      show (if _ then none else _) = _
      rw [if_neg (by simp [h2, h3, h4])]
      rfl
  obtain ⟨s1, i1, i2, ia, ib, i3, i4, i5, i6⟩ := hs
  unfold Store.addmulKaratsuba?
  rw [i1, Option.bind_some, addmulKara_store, ia, ib]
  obtain ⟨R, h1, h2, h3⟩ := addmulKara_rep hA hB i6 ⟨hk, hf, i5, i3, i4⟩
  rw [h1]
  refine ⟨_, rfl, writes_upd i2 (h2.nrows.trans i3) (h2.ncols.trans i4) (h2.fid.trans i5) ?_⟩
  rw [i3, i4] at h3
  exact h3

/-- **C68** `mzed_mul_karatsuba(C,A,B)`: `C` may be `NULL` or a matrix different from `A` and `B`. -/
theorem C68_mul_karatsuba (hA : Rep (s a) MA) (hB : Rep (s b) MB) (hk : (s a).ncols = (s b).nrows) (hf : (s a).fid = (s b).fid)
    (hc : Receives s c [a, b] (s a).fid (s a).nrows (s b).ncols M0) (ha : c.id ≠ a) (hb : c.id ≠ b) :
    ∃ s', Store.mulKaratsuba? s c a b = some s' ∧ Writes s s' c (s a).fid (s a).nrows (s b).ncols M0
      (fun i j => ∑ t ∈ Finset.range (s a).ncols, MA i t * MB t j) := by
  obtain ⟨s1, i1, i2, i3, i4, i5, i6⟩ := mulInit_store hA hk hf hc true
  unfold Store.mulKaratsuba?
  rw [i1, Option.bind_some, addmulKara_store, i2 a ha.symm, i2 b hb.symm]
  obtain ⟨R, h1, h2, h3⟩ := addmulKara_rep hA hB i6 ⟨hk, hf, i5, i3, i4⟩
  rw [h1]
  refine ⟨_, rfl, writes_upd i2 (h2.nrows.trans i3) (h2.ncols.trans i4) (h2.fid.trans i5) ?_⟩
  refine Eq.subst (motive := fun f => Rep _ f) ?_ h3
  funext i j
  by_cases hij : i < (s a).nrows ∧ j < (s b).ncols
  · simp [hij, i3, i4]
  · simp [hij, i3, i4]

theorem addElem_zero (C : Mzed) (i j : Nat) : mzedAddElem C i j 0#64 = C := by
  unfold mzedAddElem mzdXorBits
  simp only [BitVec.zero_shiftLeft, BitVec.xor_zero]
  have e : setWord (C.words i) (C.w * j / 64) (C.words i (C.w * j / 64)) = C.words i := by
    funext k
    unfold setWord
    split_ifs with h
    · rw [h]
    · rfl
  rw [e]
  exact withRow_eta C i

/-- **C68, violation**: `mzed_mul_naive` and `mzed_mul_karatsuba` called with `C == A` or `C == B` return the zero matrix: the
output, and with it the input, is cleared first. -/
theorem C68_violation_mul (hA : Rep (s a) MA) (hB : Rep (s b) MB) (hk : (s a).ncols = (s b).nrows) (hf : (s a).fid = (s b).fid)
    {k : Nat} (hc : Receives s (.given k) [a, b] (s a).fid (s a).nrows (s b).ncols M0) (hal : k = a ∨ k = b) :
    (∃ s', Store.mulNaive? s (.given k) a b = some s' ∧ Writes s s' (.given k) (s a).fid (s a).nrows (s b).ncols M0 (fun _ _ => 0)) ∧
    ∃ s', Store.mulKaratsuba? s (.given k) a b = some s' ∧ Writes s s' (.given k) (s a).fid (s a).nrows (s b).ncols M0 (fun _ _ => 0) := by
  obtain ⟨s1, i1, i2, i3, i4, i5, i6⟩ := mulInit_store hA hk hf hc true
  have i2 : ∀ j, j ≠ k → s1 j = s j := i2
  have i3 : (s1 k).nrows = (s a).nrows := i3
  have i4 : (s1 k).ncols = (s b).ncols := i4
  have i5 : (s1 k).fid = (s a).fid := i5
  have i6 : Rep (s1 k) (fun i j => if i < (s a).nrows ∧ j < (s b).ncols then 0 else M0 i j) := by
    simp only [true_and] at i6
    exact i6
  -- the operands as they are now
  have dims : (s1 a).nrows = (s a).nrows ∧ (s1 a).ncols = (s a).ncols ∧ (s1 a).fid = (s a).fid ∧
      (s1 b).nrows = (s b).nrows ∧ (s1 b).ncols = (s b).ncols ∧ (s1 b).fid = (s b).fid := by
    obtain ⟨-, h2, h3, h4⟩ := hc
    refine ⟨?_, ?_, ?_, ?_, ?_, ?_⟩ <;> first
      | (by_cases e : a = k
         · subst e; first | exact i3 | exact i5 | exact i4.trans h3.symm
         · rw [i2 a e])
      | (by_cases e : b = k
         · subst e; first | exact i4 | exact i3.trans h2.symm | exact i5.trans h4.symm
         · rw [i2 b e])
  obtain ⟨d1, d2, d3, d4, d5, d6⟩ := dims
  have hRA : ∃ MA' : Nat → Nat → Elem ff, Rep (s1 a) MA' ∧ (k = a → ∀ i t, i < (s a).nrows → t < (s a).ncols → MA' i t = 0) := by
    by_cases e : k = a
    · subst e
      refine ⟨_, i6, fun _ i t hi ht => if_pos ⟨hi, ?_⟩⟩
      have := hc.2.2.1; omega
    · exact ⟨MA, by rw [i2 a (Ne.symm e)]; exact hA, fun e' => absurd e' e⟩
  have hRB : ∃ MB' : Nat → Nat → Elem ff, Rep (s1 b) MB' ∧ (k = b → ∀ t j, t < (s b).nrows → j < (s b).ncols → MB' t j = 0) := by
    by_cases e : k = b
    · subst e
      refine ⟨_, i6, fun _ t j ht hj => if_pos ⟨?_, hj⟩⟩
      have := hc.2.1; omega
    · exact ⟨MB, by rw [i2 b (Ne.symm e)]; exact hB, fun e' => absurd e' e⟩
  obtain ⟨MA', rA, zA⟩ := hRA
  obtain ⟨MB', rB, zB⟩ := hRB
  have hz : ∀ i t j, i < (s a).nrows → t < (s a).ncols → j < (s b).ncols → MA' i t * MB' t j = 0 := by
    intro i t j hi ht hj
    rcases hal with e | e
    · rw [zA e i t hi ht, zero_mul]
    · rw [zB e t j (by omega) hj, mul_zero]
  constructor
  · unfold Store.mulNaive?
    rw [i1, Option.map_some]
    have : Store.mulNaiveAcc s1 k a b = s1 := by
      unfold Store.mulNaiveAcc
      refine forN_fix _ fun i hi => forN_fix _ fun j hj => forN_fix _ fun t ht => ?_
      rw [rA.read, rB.read, i6.ffEq, ← Elem.mul_val, hz i t j (by omega) (by omega) (by omega)]
      have : (0 : Elem ff).1 = 0#64 := rfl
      rw [this, addElem_zero, upd_eta]
    exact ⟨_, congrArg some this, i2, i3, i4, i5, i6⟩
  · unfold Store.mulKaratsuba?
    rw [i1, Option.bind_some, addmulKara_store]
    have fit : Fits (s1 k) (s1 a) (s1 b) := ⟨by omega, by omega, by omega, by omega, by omega⟩
    obtain ⟨R, h1, h2, h3⟩ := addmulKara_rep rA rB i6 fit
    have h1' : mzedAddmulKara? (s1 (Out.given k).id) (s1 a) (s1 b) = some R := h1
    rw [h1']
    refine ⟨_, rfl, writes_upd i2 (h2.nrows.trans i3) (h2.ncols.trans i4) (h2.fid.trans i5) ?_⟩
    refine Eq.subst (motive := fun f => Rep _ f) ?_ h3
    funext i j
    by_cases hij : i < (s a).nrows ∧ j < (s b).ncols
    · beta_reduce
      rw [i3, i4, if_pos hij, if_pos hij, zero_add]
      exact Finset.sum_eq_zero fun t ht => hz i t j hij.1 (by rw [Finset.mem_range] at ht; omega) hij.2
    · beta_reduce
      rw [i3, i4, if_neg hij, if_neg hij]

/-! ### blocks -/

/-- **C68** `mzed_concat(C,A,B)`, `mzed_stack(C,A,B)` and `mzed_submatrix(S,M,...)` into a new matrix or into a given one
(different from the inputs). -/
theorem C68_concat (hA : Rep (s a) MA) (hB : Rep (s b) MB) (hr : (s a).nrows = (s b).nrows)
    (hc : Receives s c [a, b] (s a).fid (s a).nrows ((s a).ncols + (s b).ncols) M0) :
    ∃ s', Store.concat? s c a b = some s' ∧ Writes s s' c (s a).fid (s a).nrows ((s a).ncols + (s b).ncols) M0
      (fun i j => if j < (s a).ncols then MA i j else MB i (j - (s a).ncols)) := by
  obtain ⟨o1, o2, o3, o4, o5, o6⟩ := receives_output hA.ffEq hc
  unfold Store.concat?
  simp only [o2 a (by simp), o2 b (by simp)]
  have hwa : (s b).w = (s a).w := by rw [hB.wEq, hA.wEq]
  have hwc : (Store.output s c (s a) (s a).nrows ((s a).ncols + (s b).ncols) c.id).w = (s a).w := by rw [o3.wEq, hA.wEq]
  rw [if_pos ⟨hr, o4, by unfold Mzed.bitCols; rw [o5, hwa, hwc, Nat.mul_add]⟩]
  refine ⟨_, rfl, writes_upd o1 o4 o5 o6 (o3.setWords _ ?_)⟩
  intro i j
  unfold Mzed.bitCols
  rw [hwc, hwa, mzdConcat_entry hA.wf.okW, hA.entry, ← hwc, o3.entry, hwc, ← hwa, hB.entry]
  by_cases h1 : i < (s a).nrows
  · by_cases h2 : j < (s a).ncols
    · simp [h1, h2, show j < (s a).ncols + (s b).ncols by omega]
    · simp only [h1, h2, and_false, if_false, true_and]
      split_ifs <;> rfl
  · simp [h1]

/-- **C68** -/
theorem C68_stack (hA : Rep (s a) MA) (hB : Rep (s b) MB) (hn : (s a).ncols = (s b).ncols)
    (hc : Receives s c [a, b] (s a).fid ((s a).nrows + (s b).nrows) (s a).ncols M0) :
    ∃ s', Store.stack? s c a b = some s' ∧ Writes s s' c (s a).fid ((s a).nrows + (s b).nrows) (s a).ncols M0
      (fun i j => if i < (s a).nrows then MA i j else MB (i - (s a).nrows) j) := by
  obtain ⟨o1, o2, o3, o4, o5, o6⟩ := receives_output hA.ffEq hc
  unfold Store.stack?
  simp only [o2 a (by simp), o2 b (by simp)]
  have hwa : (s b).w = (s a).w := by rw [hB.wEq, hA.wEq]
  have hwc : (Store.output s c (s a) ((s a).nrows + (s b).nrows) (s a).ncols c.id).w = (s a).w := by rw [o3.wEq, hA.wEq]
  rw [if_pos ⟨by unfold Mzed.bitCols; rw [hwa, hn], o4, by unfold Mzed.bitCols; rw [o5, hwc]⟩]
  refine ⟨_, rfl, writes_upd o1 o4 o5 o6 (o3.setWords _ ?_)⟩
  intro i j
  unfold Mzed.bitCols
  rw [hwc, mzdStack_entry hA.wf.okW, hA.entry, ← hwc, o3.entry, hwc, ← hwa, hB.entry]
  by_cases h1 : j < (s a).ncols
  · by_cases h2 : i < (s a).nrows
    · simp [h1, h2, show i < (s a).nrows + (s b).nrows by omega]
    · simp only [h1, h2, false_and, if_false, and_true]
      split_ifs <;> rfl
  · simp [h1]

/-- **C68** -/
theorem C68_submatrix (hA : Rep (s a) MA) (lr lc hr hc' : Nat)
    (hc : Receives s c [a] (s a).fid (hr - lr) (hc' - lc) M0) :
    ∃ s', Store.submatrix? s c a lr lc hr hc' = some s' ∧ Writes s s' c (s a).fid (hr - lr) (hc' - lc) M0
      (fun i j => MA (lr + i) (lc + j)) := by
  obtain ⟨o1, o2, o3, o4, o5, o6⟩ := receives_output hA.ffEq hc
  unfold Store.submatrix?
  simp only [o2 a (by simp)]
  have hwc : (Store.output s c (s a) (hr - lr) (hc' - lc) c.id).w = (s a).w := by rw [o3.wEq, hA.wEq]
  rw [if_pos ⟨o4, by unfold Mzed.bitCols; rw [o5, hwc, ← Nat.sub_mul, Nat.mul_comm]⟩]
  refine ⟨_, rfl, writes_upd o1 o4 o5 o6 (o3.setWords _ ?_)⟩
  intro i j
  rw [hwc, mzdSubmatrix_entry hA.wf.okW, hA.entry, ← hwc, o3.entry]
  split_ifs <;> rfl

/-- **C68** `mzed_invert_newton_john(B,A)` for an invertible `A`: `B` may be `NULL`, another matrix or `A` itself; the temporary
`t` is gone afterwards. -/
theorem C68_invert {cb : Codebook} (hcb : cb.Ok ff.degree) (optK : Nat) (small : Bool) (hA : Rep (s a) MA) (hsq : (s a).nrows = (s a).ncols)
    {N : Nat → Nat → Elem ff} (hN : IsInverse (s a).nrows MA N) {t : Nat} (hta : t ≠ a) (htc : t ≠ c.id)
    (hc : Receives s c [a, t] (s a).fid (s a).nrows (s a).ncols M0) :
    ∃ s' N', Store.invert? cb optK small s c a t = some s' ∧ IsInverse (s a).nrows MA N' ∧
      Writes s s' c (s a).fid (s a).nrows (s a).ncols M0 N' := by
  obtain ⟨h1, h2⟩ := C37_invert hcb optK small hA hsq
  obtain ⟨R, hR⟩ := h2 ⟨N, hN⟩
  obtain ⟨-, N', hN1, hN2⟩ := h1 R hR
  unfold mzedInvertNewtonJohn? at hR
  unfold Store.invert?
  simp only at hR ⊢
  set I := mzedSetUi (mzedInit (s a).ff (s a).fid (s a).nrows (s a).ncols) 1#64 with hI
  have hI0 : Rep (mzedInit (s a).ff (s a).fid (s a).nrows (s a).ncols) (fun _ _ => (0 : Elem ff)) := by rw [hA.ffEq]; exact rep_init ..
  obtain ⟨hIr, hId⟩ := hI0.setUi (1 : Elem ff)
  have e1 : ((1 : Elem ff).1) = 1#64 := rfl
  rw [e1] at hIr hId
  obtain ⟨c1, c2, hT⟩ := C43_concat hA hIr
  obtain ⟨T, M', piv, g1, g2, g3, -⟩ := C35_echelonize_newton_john hcb optK small hT true
  have gT : (mzedEchelonizeNewtonJohn cb optK small (mzedConcat (s a) I) true).1 = T := congrArg Prod.fst g1
  rw [gT] at hR ⊢
  have hTn : T.ncols = (s a).ncols + (s a).ncols := by rw [g2.ncols, c2]; exact congrArg _ hId.ncols
  have hTf : T.fid = (s a).fid := g2.fid
  by_cases heq : mzedEq I (mzedWindow T 0 0 (s a).nrows (s a).ncols) = true
  · rw [if_pos heq] at hR ⊢
    have hRe := Option.some.inj hR
    obtain ⟨s1, s2, s3⟩ := C43_submatrix g3 0 (s a).ncols (s a).nrows T.ncols
    -- the entries of the inverse are those of the right half of `T`
    have hval : ∀ i j, i < (s a).nrows → j < (s a).ncols → N' i j = M' i ((s a).ncols + j) := by
      intro i j hi hj
      rw [hRe] at s3
      apply Elem.ext'
      rw [← hN1.read, s3.read, if_pos ⟨by omega, by omega⟩, Nat.zero_add]
    have hc2 : Receives (upd s t T) c [t] (upd s t T t).fid ((s a).nrows - 0) (T.ncols - (s a).ncols) M0 := by
      rw [upd_self, hTf, hTn, Nat.sub_zero, Nat.add_sub_cancel]
      cases c with
      | null k => exact ⟨fun h => hc.1 (by simp only [List.mem_singleton] at h; simp [h]), hc.2⟩
      | given k =>
        have hk : k ≠ t := fun e => htc e.symm
        show Rep (upd s t T k) M0 ∧ (upd s t T k).nrows = _ ∧ (upd s t T k).ncols = _ ∧ (upd s t T k).fid = _
        rw [upd_ne _ hk]
        exact hc
    obtain ⟨s', h3, h4⟩ := C68_submatrix (s := upd s t T) (a := t) (by rw [upd_self]; exact g3) 0 (s a).ncols (s a).nrows T.ncols hc2
    rw [h3]
    refine ⟨upd s' t (s t), N', rfl, hN2, ?_⟩
    have hcid : upd s' t (s t) c.id = s' c.id := upd_ne _ htc.symm _
    refine ⟨fun k hk => ?_, by rw [hcid, h4.nrows, Nat.sub_zero], by rw [hcid, h4.ncols, hTn, Nat.add_sub_cancel], ?_, ?_⟩
    · by_cases hkt : k = t
      · rw [hkt, upd_self]
      · rw [upd_ne _ hkt, h4.others k hk, upd_ne _ hkt]
    · rw [hcid, h4.fid, upd_self, hTf]
    · rw [hcid]
      refine Eq.subst (motive := fun f => Rep _ f) ?_ h4.rep
      funext i j
      rw [hTn, Nat.sub_zero, Nat.add_sub_cancel]
      by_cases hij : i < (s a).nrows ∧ j < (s a).ncols
      · rw [if_pos hij, if_pos hij, hval i j hij.1 hij.2, Nat.zero_add]
      · rw [if_neg hij, if_neg hij]
  · rw [if_neg heq] at hR
    cases hR


/-! ### wrong shapes die -/

/-- **C68** a given output of the wrong shape, or over another field, dies. -/
theorem C68_dies {k : Nat} (clear : Bool) :
    (k ≠ a → ¬ SameDim (s k) (s a) → Store.add? s (.given k) a b = none) ∧
    (k ≠ b → ¬ SameDim (s k) (s b) → Store.copy? s (.given k) b = none) ∧
    ((s k).fid ≠ (s a).fid ∨ (s k).nrows ≠ (s a).nrows ∨ (s k).ncols ≠ (s b).ncols → Store.mulInit? s (.given k) a b clear = none ∧
      Store.mulNaive? s (.given k) a b = none ∧ Store.addmulNaive? s (.given k) a b = none ∧
      Store.mulKaratsuba? s (.given k) a b = none ∧ Store.addmulKaratsuba? s (.given k) a b = none) ∧
    ((s k).nrows ≠ (s a).nrows ∨ (s k).bitCols ≠ (s a).bitCols + (s b).bitCols → Store.concat? s (.given k) a b = none) ∧
    ((s k).nrows ≠ (s a).nrows + (s b).nrows ∨ (s k).bitCols ≠ (s a).bitCols → Store.stack? s (.given k) a b = none) := by
  refine ⟨fun hk hd => ?_, fun hk hd => ?_, fun h => ?_, fun h => ?_, fun h => ?_⟩
  · unfold Store.add?
    by_cases h1 : (s a).nrows ≠ (s b).nrows ∨ (s a).ncols ≠ (s b).ncols ∨ (s a).fid ≠ (s b).fid
    · exact if_pos h1
    · refine (if_neg h1).trans (if_pos ?_)
      by_contra h2
      apply hd
      simp only [hk, ne_eq, not_false_eq_true, decide_true, Bool.true_and, Bool.or_eq_true, decide_eq_true_eq, not_or, not_not] at h2
      exact ⟨h2.1.2, h2.2, h2.1.1⟩
  · unfold Store.copy?
    have e : (Out.given k).id = k := rfl
    rw [e, if_neg hk]
    show (mzedCopy? (s k) (s b)).map _ = none
    unfold mzedCopy?
    rw [if_neg (fun h => hd ⟨h.2.1, h.2.2, h.1⟩)]
    rfl
  · have hi : ∀ cl, Store.mulInit? s (.given k) a b cl = none := by
      intro cl
      unfold Store.mulInit?
      by_cases h1 : (s a).ncols ≠ (s b).nrows ∨ (s a).fid ≠ (s b).fid
      · exact if_pos h1
      · exact (if_neg h1).trans (if_pos h)
    refine ⟨hi _, ?_, ?_, ?_, ?_⟩
    · unfold Store.mulNaive?; rw [hi]; rfl
    · unfold Store.addmulNaive?; rw [hi]; rfl
    · unfold Store.mulKaratsuba?; rw [hi]; rfl
    · unfold Store.addmulKaratsuba?; rw [hi]; rfl
  · unfold Store.concat?
    refine if_neg ?_
    rintro ⟨-, h2, h3⟩
    rcases h with h | h
    · exact h h2
    · exact h h3
  · unfold Store.stack?
    refine if_neg ?_
    rintro ⟨-, h2, h3⟩
    rcases h with h | h
    · exact h h2
    · exact h h3

/-! ### accumulating in place -/

/-- one step of the schoolbook product with `C == A` -/
theorem naive_step {s : Objs} {a b : Nat} {M N : Nat → Nat → Elem ff} (hab : b ≠ a) (hA : Rep (s a) M) (hB : Rep (s b) N) (i j k : Nat) :
    (upd s a (mzedAddElem (s a) i j (gf2eMul (s a).ff (mzedReadElem (s a) i k) (mzedReadElem (s b) k j)))) b = s b ∧
    Rep ((upd s a (mzedAddElem (s a) i j (gf2eMul (s a).ff (mzedReadElem (s a) i k) (mzedReadElem (s b) k j)))) a)
      (fun p q => if p = i ∧ q = j then M i j + M i k * N k j else M p q) := by
  refine ⟨upd_ne _ hab _, ?_⟩
  rw [upd_self, hA.read, hB.read, hA.ffEq, ← Elem.mul_val]
  refine Eq.subst (motive := fun f => Rep _ f) ?_ (C12_add hA i j (M i k * N k j))
  funext p q
  by_cases h : p = i ∧ q = j
  · rw [if_pos h, if_pos h, h.1, h.2]
  · rw [if_neg h, if_neg h]

end

/-- **C68, violation**: `mzed_addmul_naive(A,A,B)` does not compute `A + A*B`: over any field, `[1 0] + [1 0]*[1 1; 0 0]` is
`[0 1]`, but the call leaves `[0 0]` behind, because it goes on computing with the entries it has already changed. -/
theorem C68_violation_addmul {s : Objs} {a b : Nat} {M : Nat → Nat → Elem ff} {N : Nat → Nat → Elem ff} (hab : b ≠ a) (hA : Rep (s a) M)
    (hB : Rep (s b) N) (ha : (s a).nrows = 1 ∧ (s a).ncols = 2) (hb : (s b).nrows = 2 ∧ (s b).ncols = 2) (hf : (s a).fid = (s b).fid)
    (m0 : M 0 0 = 1) (m1 : M 0 1 = 0) (n00 : N 0 0 = 1) (n01 : N 0 1 = 1) (n10 : N 1 0 = 0) (n11 : N 1 1 = 0) :
    (∃ s', Store.addmulNaive? s (.given a) a b = some s' ∧ mzedReadElem (s' a) 0 0 = 0#64 ∧ mzedReadElem (s' a) 0 1 = 0#64) ∧
    M 0 1 + ∑ t ∈ Finset.range (s a).ncols, M 0 t * N t 1 = 1 := by
  refine ⟨?_, by rw [ha.2]; simp [Finset.sum_range_succ, m0, m1, n01, n11]⟩
  have hi : Store.mulInit? s (.given a) a b false = some s := by
    unfold Store.mulInit?
    rw [if_neg (by simp [ha.2, hb.1, hf])]
    show (if _ then none else _) = _
    rw [if_neg (by simp [ha.2, hb.2])]
    rfl
  unfold Store.addmulNaive?
  rw [hi, Option.map_some]
  obtain ⟨e1, r1⟩ := naive_step hab hA hB 0 0 0
  set s1 := upd s a (mzedAddElem (s a) 0 0 (gf2eMul (s a).ff (mzedReadElem (s a) 0 0) (mzedReadElem (s b) 0 0))) with h1
  obtain ⟨e2, r2⟩ := naive_step hab r1 (by rw [e1]; exact hB) 0 0 1
  set s2 := upd s1 a (mzedAddElem (s1 a) 0 0 (gf2eMul (s1 a).ff (mzedReadElem (s1 a) 0 1) (mzedReadElem (s1 b) 1 0))) with h2
  obtain ⟨e3, r3⟩ := naive_step hab r2 (by rw [e2, e1]; exact hB) 0 1 0
  set s3 := upd s2 a (mzedAddElem (s2 a) 0 1 (gf2eMul (s2 a).ff (mzedReadElem (s2 a) 0 0) (mzedReadElem (s2 b) 0 1))) with h3
  obtain ⟨e4, r4⟩ := naive_step hab r3 (by rw [e3, e2, e1]; exact hB) 0 1 1
  set s4 := upd s3 a (mzedAddElem (s3 a) 0 1 (gf2eMul (s3 a).ff (mzedReadElem (s3 a) 0 1) (mzedReadElem (s3 b) 1 1))) with h4
  have hd1 : (s1 a).ncols = 2 := by rw [h1, upd_self]; exact ha.2
  have hd2 : (s2 a).ncols = 2 := by rw [h2, upd_self]; exact hd1
  have hrun : Store.mulNaiveAcc s a a b = s4 := by
    unfold Store.mulNaiveAcc
    rw [ha.1]
    show forN _ (s a).ncols s = s4
    rw [ha.2]
    show forN _ (forN _ 1 s a).ncols (forN _ 1 s) = s4
    have f1 : (forN (fun j s => forN (fun k s =>
        upd s a (mzedAddElem (s a) 0 j (gf2eMul (s a).ff (mzedReadElem (s a) 0 k) (mzedReadElem (s b) k j)))) (s a).ncols s) 1 s) = s2 := by
      show forN _ (s a).ncols s = s2
      rw [ha.2]
      rfl
    rw [f1, hd2]
    rfl
  have hone : (1 : Elem ff) + 1 = 0 := Elem.add_self 1
  refine ⟨s4, congrArg some hrun, ?_, ?_⟩
  · rw [r4.read]
    simp [m0, m1, n00, n10, hone]
  · rw [r4.read]
    simp [m0, m1, n00, n01, n10, n11, hone]

/-! ### instances -/

-- over GF(2^8): `mzed_mul_scalar`, `mzed_add`, `mzed_addmul_karatsuba` and the inversion, all in place
example : ∃ ff, ∃ _ : IsField ff, ∃ (s : Objs) (MA MB : Nat → Nat → Elem ff), Rep (s 0) MA ∧ Rep (s 1) MB ∧ SameDim (s 1) (s 0) ∧
    (s 0).ncols = (s 1).nrows ∧ (s 0).fid = (s 1).fid ∧ IsInverse (s 0).nrows MA MA ∧ MA 0 1 ≠ MA 0 0 ∧
    Receives s (.given 0) [0, 1] (s 0).fid (s 0).nrows (s 0).ncols MA ∧ Receives s (.null 7) [0, 1] (s 0).fid (s 0).nrows (s 0).ncols (fun _ _ => (0 : Elem ff)) := by
  obtain ⟨ff, h, hd⟩ := exists_aes
  have h2 : (1 : Elem ff) + 1 = 0 := Elem.add_self 1
  have h2' : (2 : Elem ff) = 0 := by rw [← one_add_one_eq_two]; exact h2
  refine ⟨ff, h, fun k => if k = 0 then Mat.pack (ff := ff) ⟨2, 2, 0, fun i j => if i = j then 0 else 1⟩ else Mat.pack (ff := ff) ⟨2, 2, 0, fun _ _ => 1⟩,
    _, _, pack_rep _, pack_rep _, ⟨(rfl : 2 = 2), (rfl : 2 = 2), (rfl : 0 = 0)⟩, (rfl : 2 = 2), (rfl : 0 = 0), ?_, by simp, ⟨pack_rep _, (rfl : 2 = 2), (rfl : 2 = 2), (rfl : 0 = 0)⟩, ⟨by simp, rfl⟩⟩
  intro i j hi hj
  have hi : i < 2 := hi
  have hj : j < 2 := hj
  interval_cases i <;> interval_cases j <;> simp [Mat.pack, Finset.sum_range_succ]

-- the operands of `C68_violation_addmul`
example : ∃ ff, ∃ _ : IsField ff, ∃ (s : Objs) (M N : Nat → Nat → Elem ff), Rep (s 0) M ∧ Rep (s 1) N ∧ (s 0).nrows = 1 ∧ (s 0).ncols = 2 ∧
    (s 1).nrows = 2 ∧ (s 1).ncols = 2 ∧ (s 0).fid = (s 1).fid ∧ M 0 0 = 1 ∧ M 0 1 = 0 ∧ N 0 0 = 1 ∧ N 0 1 = 1 ∧ N 1 0 = 0 ∧ N 1 1 = 0 := by
  obtain ⟨ff, h, hd⟩ := exists_aes
  exact ⟨ff, h, fun k => if k = 0 then Mat.pack (ff := ff) ⟨1, 2, 0, fun _ j => if j = 0 then 1 else 0⟩
    else Mat.pack (ff := ff) ⟨2, 2, 0, fun i _ => if i = 0 then 1 else 0⟩, _, _, pack_rep _, pack_rep _, (rfl : 1 = 1), (rfl : 2 = 2), (rfl : 2 = 2), (rfl : 2 = 2), (rfl : 0 = 0),
    by simp, by simp, by simp, by simp, by simp, by simp⟩

end M4rie.Props
