import Verif.Model.CheckedRec
import Verif.Proofs.CheckedNj
import Verif.Proofs.StrassenRec

/-! The checked Strassen multiplication does what the total one does. -/

namespace M4rie.Chk
open M4rie M4rie.Spec

/-- the same outcome, and a result satisfies `P` -/
def Eqv {α : Type} (P : α → Prop) (x y : Option α) : Prop := x = y ∧ ∀ r, y = some r → P r

theorem Eqv.pure {α : Type} {P : α → Prop} {a : α} (h : P a) : Eqv P (some a) (some a) := ⟨rfl, fun _ e => by cases e; exact h⟩

theorem Eqv.bind {α β : Type} {P : α → Prop} {Q : β → Prop} {x y : Option α} {f g : α → Option β} (h : Eqv P x y)
    (hf : ∀ a, P a → Eqv Q (f a) (g a)) : Eqv Q (x.bind f) (y.bind g) := by
  obtain ⟨rfl, h2⟩ := h
  cases x with
  | none => exact ⟨rfl, fun r e => by cases e⟩
  | some a => exact hf a (h2 a rfl)

/-- a checked step that is defined, in front of a total one -/
theorem Eqv.step {α β : Type} {P : α → Prop} {Q : β → Prop} {x : Option α} {a : α} {f : α → Option β} {y : Option β} (h : x = some a ∧ P a)
    (hf : P a → Eqv Q (f a) y) : Eqv Q (x.bind f) y := by rw [h.1, Option.bind_some]; exact hf h.2

theorem Eqv.mono {α : Type} {P Q : α → Prop} {x y : Option α} (h : Eqv P x y) (hp : ∀ a, P a → Q a) : Eqv Q x y := ⟨h.1, fun r e => hp r (h.2 r e)⟩

variable {ff : Gf2e} [IsField ff] {m n k l fid : Nat} {A B C : Mzed}

theorem Dm.fid_eq (h : Dm ff m n fid A) : A.fid = fid := by obtain ⟨X, rfl, rfl, rfl, rfl⟩ := h; rfl
theorem Dm.bitCols_eq (h : Dm ff m n fid A) : A.bitCols = degreeToW ff.degree * n := by obtain ⟨X, rfl, rfl, rfl, rfl⟩ := h; rfl

omit [IsField ff] in
theorem Sm.mono (h : Sm ff n) (hk : k ≤ n) : Sm ff k := by
  unfold Sm at *
  exact Nat.lt_of_le_of_lt (Nat.mul_le_mul_left _ hk) h

theorem Dm.window (h : Dm ff m n fid A) (hs : Sm ff n) {lr lc hr hc : Nat} (ha : degreeToW ff.degree * lc % 64 = 0) (h1 : lr ≤ hr) (h2 : hr ≤ m)
    (h3 : lc ≤ hc) (h4 : hc ≤ n) {a b : Nat} (ea : hr - lr = a) (eb : hc - lc = b) :
    window A lr lc hr hc = some (mzedWindow A lr lc hr hc) ∧ Dm ff a b fid (mzedWindow A lr lc hr hc) := by
  refine ⟨?_, ?_⟩
  · unfold Chk.window
    rw [h.w_eq, int_eq (hs.mono (h3.trans h4)), Option.bind_some, int_eq (hs.mono h4), Option.bind_some, need_eq, Option.bind_some]
    refine ⟨ha, h1, by rw [h.nrows_eq]; exact h2, Nat.mul_le_mul_left _ h3, by rw [h.bitCols_eq]; exact Nat.mul_le_mul_left _ h4⟩
  · obtain ⟨X, rfl, rfl, rfl, rfl⟩ := h
    rw [window_pack _ _ _ _ _ ha]
    exact ⟨_, rfl, ea, eb, rfl⟩

theorem init_dm (hs : Sm ff n) : init ff fid m n = some (mzedInit ff fid m n) ∧ Dm ff m n fid (mzedInit ff fid m n) := by
  refine ⟨?_, _, init_pack _ _ _, rfl, rfl, rfl⟩
  unfold init
  rw [int_eq hs, Option.bind_some]

theorem addRaw_eq (hC : Dm ff m n fid C) (hA : Dm ff m n fid A) (hB : Dm ff m n fid B) :
    addRaw C A B = some (mzedAddRaw C A B) ∧ Dm ff m n fid (mzedAddRaw C A B) := by
  refine ⟨?_, ?_⟩
  · unfold addRaw
    rw [need_eq, Option.bind_some]
    rw [hA.nrows_eq, hB.nrows_eq, hC.nrows_eq, hA.bitCols_eq, hB.bitCols_eq, hC.bitCols_eq]
    exact ⟨rfl, rfl, rfl, rfl⟩
  · obtain ⟨X, rfl, rfl, rfl, rfl⟩ := hC
    obtain ⟨Y, rfl, e1, e2, e3⟩ := hA
    obtain ⟨Z, rfl, e4, e5, e6⟩ := hB
    rw [addRaw_pack X Y Z e1 e2]
    exact ⟨_, rfl, rfl, rfl, rfl⟩

theorem copy_dm (hC : Dm ff m n fid C) (hA : Dm ff m n fid A) : ∃ R, mzedCopy? C A = some R ∧ Dm ff m n fid R := by
  obtain ⟨X, rfl, rfl, rfl, rfl⟩ := hC
  obtain ⟨Y, rfl, e1, e2, e3⟩ := hA
  exact ⟨_, copyM_pack X Y e1.symm e2.symm e3.symm, _, rfl, rfl, rfl, rfl⟩

theorem onWindow_eqv (hC : Dm ff m n fid C) (hs : Sm ff n) {lr lc hr hc : Nat} (ha : degreeToW ff.degree * lc % 64 = 0) (h1 : lr ≤ hr) (h2 : hr ≤ m)
    (h3 : lc ≤ hc) (h4 : hc ≤ n) {a b : Nat} (ea : hr - lr = a) (eb : hc - lc = b) {f g : Mzed → Option Mzed}
    (hf : ∀ W, Dm ff a b fid W → Eqv (Dm ff a b fid) (f W) (g W)) :
    Eqv (Dm ff m n fid) (onWindow C lr lc hr hc f) (M4rie.onWindow C lr lc hr hc g) := by
  obtain ⟨w1, w2⟩ := hC.window hs ha h1 h2 h3 h4 ea eb
  unfold onWindow M4rie.onWindow
  rw [w1, Option.bind_some]
  obtain ⟨e, hP⟩ := hf _ w2
  rw [e]
  cases hg : g (mzedWindow C lr lc hr hc) with
  | none => exact ⟨rfl, fun r e => by cases e⟩
  | some W =>
    refine Eqv.pure ?_
    obtain ⟨Y, rfl, -, -, -⟩ := hP W hg
    obtain ⟨X, rfl, rfl, rfl, rfl⟩ := hC
    rw [pack_w]
    exact ⟨_, windowWrite_pack _ _ _ _ ha, rfl, rfl, rfl⟩

/-- what the checked and the total multiplication of `m × k` by `k × n` must do -/
def MulEqv (ff : Gf2e) [IsField ff] (fid : Nat) (f g : Mzed → Mzed → Mzed → Option Mzed) (m k n : Nat) : Prop :=
  ∀ C A B, Dm ff m n fid C → Dm ff m k fid A → Dm ff k n fid B → Eqv (Dm ff m n fid) (f C A B) (g C A B)

section step
variable {m0 k0 n0 : Nat}

theorem strassenMulStep_eqv {f g : Mzed → Mzed → Mzed → Option Mzed} (hfg : MulEqv ff fid f g m k n) (hC : Dm ff m0 n0 fid C) (hA : Dm ff m0 k0 fid A)
    (hB : Dm ff k0 n0 fid B) (hs : Sm ff k0) (hs' : Sm ff n0) (hm : 2 * m ≤ m0) (hk : 2 * k ≤ k0) (hn : 2 * n ≤ n0)
    (ak : degreeToW ff.degree * k % 64 = 0) (an : degreeToW ff.degree * n % 64 = 0) :
    Eqv (Dm ff m0 n0 fid) (strassenMulStep f C A B m k n) (M4rie.strassenMulStep g C A B m k n) := by
  have a0 : degreeToW ff.degree * 0 % 64 = 0 := by simp
  have o11 : ∀ {C} {f g : Mzed → Option Mzed}, Dm ff m0 n0 fid C → (∀ W, Dm ff m n fid W → Eqv (Dm ff m n fid) (f W) (g W)) →
      Eqv (Dm ff m0 n0 fid) (onWindow C 0 0 m n f) (M4rie.onWindow C 0 0 m n g) := fun hC h =>
    onWindow_eqv hC hs' a0 (by omega) (by omega) (by omega) (by omega) (by omega) (by omega) h
  have o12 : ∀ {C} {f g : Mzed → Option Mzed}, Dm ff m0 n0 fid C → (∀ W, Dm ff m n fid W → Eqv (Dm ff m n fid) (f W) (g W)) →
      Eqv (Dm ff m0 n0 fid) (onWindow C 0 n m (2 * n) f) (M4rie.onWindow C 0 n m (2 * n) g) := fun hC h =>
    onWindow_eqv hC hs' an (by omega) (by omega) (by omega) (by omega) (by omega) (by omega) h
  have o21 : ∀ {C} {f g : Mzed → Option Mzed}, Dm ff m0 n0 fid C → (∀ W, Dm ff m n fid W → Eqv (Dm ff m n fid) (f W) (g W)) →
      Eqv (Dm ff m0 n0 fid) (onWindow C m 0 (2 * m) n f) (M4rie.onWindow C m 0 (2 * m) n g) := fun hC h =>
    onWindow_eqv hC hs' a0 (by omega) (by omega) (by omega) (by omega) (by omega) (by omega) h
  have o22 : ∀ {C} {f g : Mzed → Option Mzed}, Dm ff m0 n0 fid C → (∀ W, Dm ff m n fid W → Eqv (Dm ff m n fid) (f W) (g W)) →
      Eqv (Dm ff m0 n0 fid) (onWindow C m n (2 * m) (2 * n) f) (M4rie.onWindow C m n (2 * m) (2 * n) g) := fun hC h =>
    onWindow_eqv hC hs' an (by omega) (by omega) (by omega) (by omega) (by omega) (by omega) h
  have c11 : ∀ {C}, Dm ff m0 n0 fid C → _ := fun {C} hC => hC.window hs' a0 (lr := 0) (hr := m) (hc := n) (by omega) (by omega) (by omega) (by omega) (a := m) (b := n) (by omega) (by omega)
  have c21 : ∀ {C}, Dm ff m0 n0 fid C → _ := fun {C} hC => hC.window hs' a0 (lr := m) (hr := 2 * m) (hc := n) (by omega) (by omega) (by omega) (by omega) (a := m) (b := n) (by omega) (by omega)
  have c22 : ∀ {C}, Dm ff m0 n0 fid C → _ := fun {C} hC => hC.window hs' an (lr := m) (hr := 2 * m) (hc := 2 * n) (by omega) (by omega) (by omega) (by omega) (a := m) (b := n) (by omega) (by omega)
  unfold strassenMulStep M4rie.strassenMulStep
  refine Eqv.step (hA.window hs a0 (by omega) (by omega) (by omega) (by omega) (a := m) (b := k) (by omega) (by omega)) fun hA11 => ?_
  refine Eqv.step (hA.window hs ak (by omega) (by omega) (by omega) (by omega) (a := m) (b := k) (by omega) (by omega)) fun hA12 => ?_
  refine Eqv.step (hA.window hs a0 (by omega) (by omega) (by omega) (by omega) (a := m) (b := k) (by omega) (by omega)) fun hA21 => ?_
  refine Eqv.step (hA.window hs ak (by omega) (by omega) (by omega) (by omega) (a := m) (b := k) (by omega) (by omega)) fun hA22 => ?_
  refine Eqv.step (hB.window hs' a0 (by omega) (by omega) (by omega) (by omega) (a := k) (b := n) (by omega) (by omega)) fun hB11 => ?_
  refine Eqv.step (hB.window hs' an (by omega) (by omega) (by omega) (by omega) (a := k) (b := n) (by omega) (by omega)) fun hB12 => ?_
  refine Eqv.step (hB.window hs' a0 (by omega) (by omega) (by omega) (by omega) (a := k) (b := n) (by omega) (by omega)) fun hB21 => ?_
  refine Eqv.step (hB.window hs' an (by omega) (by omega) (by omega) (by omega) (a := k) (b := n) (by omega) (by omega)) fun hB22 => ?_
  rw [hA.ff_eq, hA.fid_eq]
  generalize mzedWindow A 0 0 m k = A11 at *
  generalize mzedWindow A 0 k m (2 * k) = A12 at *
  generalize mzedWindow A m 0 (2 * m) k = A21 at *
  generalize mzedWindow A m k (2 * m) (2 * k) = A22 at *
  generalize mzedWindow B 0 0 k n = B11 at *
  generalize mzedWindow B 0 n k (2 * n) = B12 at *
  generalize mzedWindow B k 0 (2 * k) n = B21 at *
  generalize mzedWindow B k n (2 * k) (2 * n) = B22 at *
  refine Eqv.step (init_dm (hs.mono (by omega))) fun hM => ?_
  refine Eqv.step (init_dm (hs'.mono (by omega))) fun hK => ?_
  refine Eqv.step (addRaw_eq hK hB22 hB12) fun hK => ?_
  refine Eqv.step (addRaw_eq hM hA22 hA12) fun hM => ?_
  refine Eqv.bind (o21 hC fun W hW => hfg _ _ _ hW hM hK) fun C hC => ?_
  refine Eqv.step (addRaw_eq hM hA22 hA21) fun hM => ?_
  refine Eqv.step (addRaw_eq hK hB22 hB21) fun hK => ?_
  refine Eqv.bind (o22 hC fun W hW => hfg _ _ _ hW hM hK) fun C hC => ?_
  refine Eqv.step (addRaw_eq hK hK hB12) fun hK => ?_
  refine Eqv.step (addRaw_eq hM hM hA12) fun hM => ?_
  refine Eqv.bind (o11 hC fun W hW => hfg _ _ _ hW hM hK) fun C hC => ?_
  refine Eqv.step (addRaw_eq hM hM hA11) fun hM => ?_
  refine Eqv.bind (o12 hC fun W hW => hfg _ _ _ hW hM hB12) fun C hC => ?_
  refine Eqv.bind (o12 hC fun W hW => Eqv.step (c22 hC) fun hV => ⟨(addRaw_eq hW hW hV).1, fun r e => by cases e; exact (addRaw_eq hW hW hV).2⟩) fun C hC => ?_
  refine Eqv.step (P := fun _ => True) ⟨need_eq ⟨hA12.ncols_eq.trans hB21.nrows_eq.symm, hA12.fid_eq.trans hB21.fid_eq.symm⟩, trivial⟩ fun _ => ?_
  rw [hA12.ff_eq, hA12.fid_eq, hA12.nrows_eq, hB21.ncols_eq]
  refine Eqv.step (init_dm (hs'.mono (by omega))) fun hU => ?_
  refine Eqv.bind (hfg _ _ _ hU hA12 hB21) fun U hU => ?_
  refine Eqv.bind (o11 hC fun W hW => ⟨(addRaw_eq hW hW hU).1, fun r e => by cases e; exact (addRaw_eq hW hW hU).2⟩) fun C hC => ?_
  refine Eqv.bind (o12 hC fun W hW => Eqv.step (c11 hC) fun hV => ⟨(addRaw_eq hW hV hW).1, fun r e => by cases e; exact (addRaw_eq hW hV hW).2⟩) fun C hC => ?_
  refine Eqv.bind (o11 hC fun W hW => Eqv.step (c21 hC) fun hV => ⟨(addRaw_eq hW hV hW).1, fun r e => by cases e; exact (addRaw_eq hW hV hW).2⟩) fun C hC => ?_
  refine Eqv.step (addRaw_eq hK hK hB11) fun hK => ?_
  refine Eqv.bind (o21 hC fun W hW => hfg _ _ _ hW hA21 hK) fun C hC => ?_
  refine Eqv.bind (o21 hC fun W hW => Eqv.step (c11 hC) fun hV => ⟨(addRaw_eq hW hV hW).1, fun r e => by cases e; exact (addRaw_eq hW hV hW).2⟩) fun C hC => ?_
  refine Eqv.bind (o22 hC fun W hW => Eqv.step (c11 hC) fun hV => ⟨(addRaw_eq hW hW hV).1, fun r e => by cases e; exact (addRaw_eq hW hW hV).2⟩) fun C hC => ?_
  refine Eqv.bind (o11 hC fun W hW => hfg _ _ _ hW hA11 hB11) fun C hC => ?_
  exact o11 hC fun W hW => ⟨(addRaw_eq hW hW hU).1, fun r e => by cases e; exact (addRaw_eq hW hW hU).2⟩

theorem strassenAddmulStep_eqv {f g f' g' : Mzed → Mzed → Mzed → Option Mzed} (hfg : MulEqv ff fid f g m k n) (hfg' : MulEqv ff fid f' g' m k n) (hC : Dm ff m0 n0 fid C) (hA : Dm ff m0 k0 fid A)
    (hB : Dm ff k0 n0 fid B) (hs : Sm ff k0) (hs' : Sm ff n0) (hm : 2 * m ≤ m0) (hk : 2 * k ≤ k0) (hn : 2 * n ≤ n0)
    (ak : degreeToW ff.degree * k % 64 = 0) (an : degreeToW ff.degree * n % 64 = 0) :
    Eqv (Dm ff m0 n0 fid) (strassenAddmulStep f f' C A B m k n) (M4rie.strassenAddmulStep g g' C A B m k n) := by
  have a0 : degreeToW ff.degree * 0 % 64 = 0 := by simp
  have o11 : ∀ {C} {f g : Mzed → Option Mzed}, Dm ff m0 n0 fid C → (∀ W, Dm ff m n fid W → Eqv (Dm ff m n fid) (f W) (g W)) →
      Eqv (Dm ff m0 n0 fid) (onWindow C 0 0 m n f) (M4rie.onWindow C 0 0 m n g) := fun hC h =>
    onWindow_eqv hC hs' a0 (by omega) (by omega) (by omega) (by omega) (by omega) (by omega) h
  have o12 : ∀ {C} {f g : Mzed → Option Mzed}, Dm ff m0 n0 fid C → (∀ W, Dm ff m n fid W → Eqv (Dm ff m n fid) (f W) (g W)) →
      Eqv (Dm ff m0 n0 fid) (onWindow C 0 n m (2 * n) f) (M4rie.onWindow C 0 n m (2 * n) g) := fun hC h =>
    onWindow_eqv hC hs' an (by omega) (by omega) (by omega) (by omega) (by omega) (by omega) h
  have o21 : ∀ {C} {f g : Mzed → Option Mzed}, Dm ff m0 n0 fid C → (∀ W, Dm ff m n fid W → Eqv (Dm ff m n fid) (f W) (g W)) →
      Eqv (Dm ff m0 n0 fid) (onWindow C m 0 (2 * m) n f) (M4rie.onWindow C m 0 (2 * m) n g) := fun hC h =>
    onWindow_eqv hC hs' a0 (by omega) (by omega) (by omega) (by omega) (by omega) (by omega) h
  have o22 : ∀ {C} {f g : Mzed → Option Mzed}, Dm ff m0 n0 fid C → (∀ W, Dm ff m n fid W → Eqv (Dm ff m n fid) (f W) (g W)) →
      Eqv (Dm ff m0 n0 fid) (onWindow C m n (2 * m) (2 * n) f) (M4rie.onWindow C m n (2 * m) (2 * n) g) := fun hC h =>
    onWindow_eqv hC hs' an (by omega) (by omega) (by omega) (by omega) (by omega) (by omega) h
  unfold strassenAddmulStep M4rie.strassenAddmulStep
  refine Eqv.step (hA.window hs a0 (by omega) (by omega) (by omega) (by omega) (a := m) (b := k) (by omega) (by omega)) fun hA11 => ?_
  refine Eqv.step (hA.window hs ak (by omega) (by omega) (by omega) (by omega) (a := m) (b := k) (by omega) (by omega)) fun hA12 => ?_
  refine Eqv.step (hA.window hs a0 (by omega) (by omega) (by omega) (by omega) (a := m) (b := k) (by omega) (by omega)) fun hA21 => ?_
  refine Eqv.step (hA.window hs ak (by omega) (by omega) (by omega) (by omega) (a := m) (b := k) (by omega) (by omega)) fun hA22 => ?_
  refine Eqv.step (hB.window hs' a0 (by omega) (by omega) (by omega) (by omega) (a := k) (b := n) (by omega) (by omega)) fun hB11 => ?_
  refine Eqv.step (hB.window hs' an (by omega) (by omega) (by omega) (by omega) (a := k) (b := n) (by omega) (by omega)) fun hB12 => ?_
  refine Eqv.step (hB.window hs' a0 (by omega) (by omega) (by omega) (by omega) (a := k) (b := n) (by omega) (by omega)) fun hB21 => ?_
  refine Eqv.step (hB.window hs' an (by omega) (by omega) (by omega) (by omega) (a := k) (b := n) (by omega) (by omega)) fun hB22 => ?_
  rw [hA.ff_eq, hA.fid_eq]
  generalize mzedWindow A 0 0 m k = A11 at *
  generalize mzedWindow A 0 k m (2 * k) = A12 at *
  generalize mzedWindow A m 0 (2 * m) k = A21 at *
  generalize mzedWindow A m k (2 * m) (2 * k) = A22 at *
  generalize mzedWindow B 0 0 k n = B11 at *
  generalize mzedWindow B 0 n k (2 * n) = B12 at *
  generalize mzedWindow B k 0 (2 * k) n = B21 at *
  generalize mzedWindow B k n (2 * k) (2 * n) = B22 at *
  refine Eqv.step (init_dm (hs.mono (by omega))) fun hS => ?_
  refine Eqv.step (init_dm (hs'.mono (by omega))) fun hT => ?_
  refine Eqv.step (init_dm (hs'.mono (by omega))) fun hU => ?_
  refine Eqv.step (addRaw_eq hS hA22 hA21) fun hS => ?_
  refine Eqv.step (addRaw_eq hT hB22 hB21) fun hT => ?_
  refine Eqv.bind (hfg _ _ _ hU hS hT) fun U hU => ?_
  refine Eqv.bind (o22 hC fun W hW => ⟨(addRaw_eq hW hU hW).1, fun r e => by cases e; exact (addRaw_eq hW hU hW).2⟩) fun C hC => ?_
  refine Eqv.bind (o12 hC fun W hW => ⟨(addRaw_eq hW hU hW).1, fun r e => by cases e; exact (addRaw_eq hW hU hW).2⟩) fun C hC => ?_
  refine Eqv.bind (hfg _ _ _ hU hA12 hB21) fun U hU => ?_
  refine Eqv.bind (o11 hC fun W hW => ⟨(addRaw_eq hW hU hW).1, fun r e => by cases e; exact (addRaw_eq hW hU hW).2⟩) fun C hC => ?_
  refine Eqv.bind (o11 hC fun W hW => hfg' _ _ _ hW hA11 hB11) fun C hC => ?_
  refine Eqv.step (addRaw_eq hS hS hA12) fun hS => ?_
  refine Eqv.step (addRaw_eq hT hT hB12) fun hT => ?_
  refine Eqv.bind (hfg' _ _ _ hU hS hT) fun U hU => ?_
  refine Eqv.bind (o12 hC fun W hW => ⟨(addRaw_eq hW hW hU).1, fun r e => by cases e; exact (addRaw_eq hW hW hU).2⟩) fun C hC => ?_
  refine Eqv.step (addRaw_eq hS hA11 hS) fun hS => ?_
  refine Eqv.bind (o12 hC fun W hW => hfg' _ _ _ hW hS hB12) fun C hC => ?_
  refine Eqv.step (addRaw_eq hT hB11 hT) fun hT => ?_
  refine Eqv.bind (o21 hC fun W hW => hfg' _ _ _ hW hA21 hT) fun C hC => ?_
  refine Eqv.step (addRaw_eq hS hA22 hA12) fun hS => ?_
  refine Eqv.step (addRaw_eq hT hB22 hB12) fun hT => ?_
  refine Eqv.bind (hfg' _ _ _ hU hS hT) fun U hU => ?_
  refine Eqv.bind (o21 hC fun W hW => ⟨(addRaw_eq hW hW hU).1, fun r e => by cases e; exact (addRaw_eq hW hW hU).2⟩) fun C hC => ?_
  exact o22 hC fun W hW => ⟨(addRaw_eq hW hW hU).1, fun r e => by cases e; exact (addRaw_eq hW hW hU).2⟩

theorem strassenRest_eqv {f g : Mzed → Mzed → Mzed → Option Mzed} (hfg : ∀ m k n, Sm ff k → Sm ff n → MulEqv ff fid f g m k n) (clear : Bool) (hC : Dm ff m0 n0 fid C)
    (hA : Dm ff m0 k0 fid A) (hB : Dm ff k0 n0 fid B) (hs : Sm ff k0) (hs' : Sm ff n0) (hm : m ≤ m0) (hk : k ≤ k0) (hn : n ≤ n0)
    (ak : degreeToW ff.degree * k % 64 = 0) (an : degreeToW ff.degree * n % 64 = 0) :
    Eqv (Dm ff m0 n0 fid) (strassenRest f clear C A B m0 k0 n0 m k n) (M4rie.strassenRest g clear C A B m0 k0 n0 m k n) := by
  have a0 : degreeToW ff.degree * 0 % 64 = 0 := by simp
  have hcl : ∀ {a b : Nat} {W : Mzed}, Dm ff a b fid W → Sm ff b → (if clear then setUi W 0#64 else some W) = some (if clear then mzedSetUi W 0#64 else W) ∧
      Dm ff a b fid (if clear then mzedSetUi W 0#64 else W) := by
    intro a b W hW hb
    cases clear with
    | false => exact ⟨rfl, hW⟩
    | true => exact setUi_eq hW hb (0 : Elem ff)
  unfold strassenRest M4rie.strassenRest
  refine Eqv.bind (P := Dm ff m0 n0 fid) ?_ fun C hC => Eqv.bind (P := Dm ff m0 n0 fid) ?_ fun C hC => ?_
  · by_cases h : n0 > n
    · rw [if_pos h, if_pos h]
      refine Eqv.step (hB.window hs' an (by omega) (by omega) (by omega) (by omega) (a := k0) (b := n0 - n) (by omega) (by omega)) fun hV => ?_
      exact onWindow_eqv hC hs' an (by omega) (by omega) (by omega) (by omega) (a := m0) (b := n0 - n) (by omega) (by omega) fun W hW =>
        Eqv.step (hcl hW (hs'.mono (by omega))) fun hW => hfg _ _ _ hs (hs'.mono (by omega)) _ _ _ hW hA hV
    · rw [if_neg h, if_neg h]; exact Eqv.pure hC
  · by_cases h : m0 > m
    · rw [if_pos h, if_pos h]
      refine Eqv.step (hA.window hs a0 (by omega) (by omega) (by omega) (by omega) (a := m0 - m) (b := k0) (by omega) (by omega)) fun hU => ?_
      refine Eqv.step (hB.window hs' a0 (by omega) (by omega) (by omega) (by omega) (a := k0) (b := n) (by omega) (by omega)) fun hV => ?_
      exact onWindow_eqv hC hs' a0 (by omega) (by omega) (by omega) (by omega) (a := m0 - m) (b := n) (by omega) (by omega) fun W hW =>
        Eqv.step (hcl hW (hs'.mono (by omega))) fun hW => hfg _ _ _ hs (hs'.mono (by omega)) _ _ _ hW hU hV
    · rw [if_neg h, if_neg h]; exact Eqv.pure hC
  · by_cases h : k0 > k
    · rw [if_pos h, if_pos h]
      refine Eqv.step (hA.window hs ak (by omega) (by omega) (by omega) (by omega) (a := m) (b := k0 - k) (by omega) (by omega)) fun hU => ?_
      refine Eqv.step (hB.window hs' a0 (by omega) (by omega) (by omega) (by omega) (a := k0 - k) (b := n) (by omega) (by omega)) fun hV => ?_
      exact onWindow_eqv hC hs' a0 (by omega) (by omega) (by omega) (by omega) (a := m) (b := n) (by omega) (by omega) fun W hW =>
        hfg _ _ _ (hs.mono (by omega)) (hs'.mono (by omega)) _ _ _ hW hU hV
    · rw [if_neg h, if_neg h]; exact Eqv.pure hC

end step

theorem copy_eqv (hC : Dm ff m n fid C) (hA : Dm ff m n fid A) : Eqv (Dm ff m n fid) (mzedCopy? C A) (mzedCopy? C A) := by
  obtain ⟨R, e, h⟩ := copy_dm hC hA
  rw [e]; exact Eqv.pure h

theorem mulStrassenF_eqv {f g : Mzed → Mzed → Mzed → Option Mzed} (hfg : ∀ m k n, Sm ff k → Sm ff n → MulEqv ff fid f g m k n) (cutoff : Int) :
    ∀ (fuel m k n : Nat), Sm ff k → Sm ff n → MulEqv ff fid (mulStrassenF f cutoff fuel) (M4rie.mulStrassenF g cutoff fuel) m k n := by
  intro fuel
  induction fuel with
  | zero => intro m k n _ _ C A B _ _ _; exact ⟨rfl, fun r e => by cases e⟩
  | succ fuel ih =>
    intro m k n hs hs' C A B hC hA hB
    unfold mulStrassenF M4rie.mulStrassenF
    rw [hA.nrows_eq, hA.ncols_eq, hB.ncols_eq, hA.w_eq, hC.nrows_eq, hC.ncols_eq, hC.ff_eq, hC.fid_eq]
    by_cases h0 : m = 0 ∧ n = 0
    · rw [if_pos h0, if_pos h0]; exact Eqv.pure hC
    rw [if_neg h0, if_neg h0]
    by_cases h1 : strassenBase cutoff m k n = true
    · rw [if_pos h1, if_pos h1]
      exact Eqv.step (init_dm hs') fun hI => Eqv.bind (hfg _ _ _ hs hs' _ _ _ hI hA hB) fun R hR => copy_eqv hC hR
    rw [if_neg h1, if_neg h1]
    have lm := halfDim_le (degreeToW ff.degree) m
    have lk := halfDim_le (degreeToW ff.degree) k
    have ln := halfDim_le (degreeToW ff.degree) n
    refine Eqv.bind (strassenMulStep_eqv (ih _ _ _ (hs.mono (by omega)) (hs'.mono (by omega))) hC hA hB hs hs' lm lk ln (halfDim_aligned k) (halfDim_aligned n)) fun C hC => ?_
    exact strassenRest_eqv hfg true hC hA hB hs hs' lm lk ln (halfDim_aligned2 k) (halfDim_aligned2 n)

theorem addmulStrassenF_eqv {f g : Mzed → Mzed → Mzed → Option Mzed} (hfg : ∀ m k n, Sm ff k → Sm ff n → MulEqv ff fid f g m k n) (cutoff : Int) :
    ∀ (fuel m k n : Nat), Sm ff k → Sm ff n → MulEqv ff fid (addmulStrassenF f cutoff fuel) (M4rie.addmulStrassenF g cutoff fuel) m k n := by
  intro fuel
  induction fuel with
  | zero => intro m k n _ _ C A B _ _ _; exact ⟨rfl, fun r e => by cases e⟩
  | succ fuel ih =>
    intro m k n hs hs' C A B hC hA hB
    unfold addmulStrassenF M4rie.addmulStrassenF
    rw [hA.nrows_eq, hA.ncols_eq, hB.ncols_eq, hA.w_eq, hC.nrows_eq, hC.ncols_eq, hC.ff_eq, hC.fid_eq]
    by_cases h0 : m = 0 ∧ n = 0
    · rw [if_pos h0, if_pos h0]; exact Eqv.pure hC
    rw [if_neg h0, if_neg h0]
    by_cases h1 : strassenBase cutoff m k n = true
    · rw [if_pos h1, if_pos h1]
      exact Eqv.step (init_dm hs') fun hI => Eqv.bind (copy_eqv hI hC) fun I hI => Eqv.bind (hfg _ _ _ hs hs' _ _ _ hI hA hB) fun R hR => copy_eqv hC hR
    rw [if_neg h1, if_neg h1]
    have lm := halfDim_le (degreeToW ff.degree) m
    have lk := halfDim_le (degreeToW ff.degree) k
    have ln := halfDim_le (degreeToW ff.degree) n
    refine Eqv.bind (strassenAddmulStep_eqv (mulStrassenF_eqv hfg cutoff fuel _ _ _ (hs.mono (by omega)) (hs'.mono (by omega))) (ih _ _ _ (hs.mono (by omega)) (hs'.mono (by omega)))
      hC hA hB hs hs' lm lk ln (halfDim_aligned k) (halfDim_aligned n)) fun C hC => ?_
    exact strassenRest_eqv hfg false hC hA hB hs hs' lm lk ln (halfDim_aligned2 k) (halfDim_aligned2 n)

/-! ### the base case, also without columns -/

theorem forC_none {σ : Type} (f : Nat → σ → Option σ) (s : σ) : ∀ n, 0 < n → f 0 s = none → forC f n s = none := by
  intro n
  induction n with
  | zero => omega
  | succ n ih =>
    intro _ hf
    rcases Nat.eq_zero_or_pos n with rfl | hn
    · exact hf
    · show (forC f n s).bind _ = none; rw [ih hn hf]; rfl

theorem bindn {α β : Type} {x : Option α} {f : α → Option β} (h : ∀ a, f a = none) : x.bind f = none := by
  cases x with
  | none => rfl
  | some a => exact h a

theorem addRow_none (dbg : Bool) {ar br : Nat} (h : A.ncols = 0) : addRow dbg A ar B br 0 = none := by
  have hw : A.width = 0 := by unfold Mzed.width Mzed.bitCols; rw [h, Nat.mul_zero]
  unfold addRow
  cases dbg
  · rw [show assert? false (A.ncols = B.ncols ∧ A.fid = B.fid) = some () from if_neg (by simp),
      show assert? false (0 < A.ncols) = some () from if_neg (by simp), Option.bind_some, Option.bind_some, Nat.mul_zero, show int? 0 = some 0 from rfl, Option.bind_some]
    cases rightMask (64 - 0 % 64) with
    | none => rfl
    | some m =>
      cases rowOf A ar with
      | none => rfl
      | some a =>
        cases rowOf B br with
        | none => rfl
        | some b =>
          simp only [Option.bind_some]
          rw [if_neg (by omega)]
          cases ldr B.width b (0 / 64) with
          | none => rfl
          | some v =>
            simp only [Option.bind_some]
            unfold xorAt
            rw [show ldr A.width a (0 / 64) = none from if_neg (by omega)]
            rfl
  · rw [show assert? true (0 < A.ncols) = none from if_pos ⟨rfl, by omega⟩]
    cases assert? true (A.ncols = B.ncols ∧ A.fid = B.fid) <;> rfl

theorem makeTable_none (dbg : Bool) (cb : Codebook) {T : Njt} {r : Nat} (h : T.M.ncols = 0) (hd : 0 < A.ff.degree) : makeTable dbg cb T A r 0 = none := by
  unfold makeTable
  cases assert? dbg (64 > A.ff.degree) with
  | none => rfl
  | some _ =>
    rw [Option.bind_some]
    simp only []
    cases int? (A.w * 0) with
    | none => rfl
    | some _ =>
      rw [Option.bind_some, forC_none _ _ _ hd]
      · rfl
      · rw [shl_eq (by omega), Option.bind_some]
        unfold addMultipleOfRow
        rw [if_neg (by decide), if_pos (by decide)]
        refine bindn fun _ => bindn fun _ => addRow_none dbg h

theorem mulNewtonJohn_none (dbg : Bool) (cb : Codebook) (bs : Nat) (hA : Dm ff m l fid A) (hB : Dm ff l 0 fid B) (h1 : ff.degree ≤ m) (h2 : 0 < l) :
    mulNewtonJohn dbg cb bs C A B = none := by
  have hd : 0 < B.ff.degree := by rw [hB.ff_eq]; have := (IsField.minpoly_eq (ff := ff)).2.2; omega
  unfold mulNewtonJohn
  rw [if_neg (by rw [hA.ff_eq, hA.nrows_eq]; omega)]
  simp only []
  have key : ∀ T : Njt, T.M.ncols = 0 → ∀ r, makeTable dbg cb T B r 0 = none := fun T hT r => makeTable_none dbg cb hT hd
  have gi : ∀ g c s, (∀ q, (s.2 q).M.ncols = 0) → 0 < l / 8 → njGiant dbg cb A B g c (l / 8) s = none := by
    intro g c s hT h8
    unfold njGiant
    refine forC_none _ _ _ h8 ?_
    rw [show makeTables dbg cb B (8 * 0) 0 0 8 s.2 = none from forC_none _ _ _ (by omega) (by rw [Nat.zero_mul, Nat.add_zero, key _ (hT 0)]; rfl)]
    rfl
  have hT : ∀ q : Nat, (njtInit B.ff B.fid B.ncols).M.ncols = 0 := fun _ => hB.ncols_eq
  rw [hA.ncols_eq]
  generalize njBlocksize bs A.w A.nrows = blk
  rcases Nat.eq_zero_or_pos (l / 8) with h8 | h8
  · rw [h8]
    have e : ∀ g c (s : Mzed × (Nat → Njt)), njGiant dbg cb A B g c 0 s = some s := fun _ _ _ => rfl
    have e2 : ∀ n (s : Mzed × (Nat → Njt)), forC (fun g s => njGiant dbg cb A B (g * blk) blk 0 s) n s = some s := by
      intro n s
      induction n with
      | zero => rfl
      | succ n ih => unfold forC; rw [ih, Option.bind_some]; rfl
    rw [e2, Option.bind_some, e, Option.bind_some, if_pos (by omega)]
    unfold mulNj0From
    rw [forC_none _ _ _ (by omega)]
    · rfl
    · simp only []
      rw [key _ (hT 0)]; rfl
  · rcases Nat.eq_zero_or_pos (A.nrows / blk) with hb | hb
    · rw [hb]
      show (njGiant dbg cb A B _ _ _ _).bind _ = none
      rw [gi _ _ _ hT h8]; rfl
    · rw [forC_none _ _ _ hb (gi _ _ _ hT h8)]; rfl

theorem mulNewtonJohn_eqv (dbg : Bool) {cb : Codebook} (hcb : cb.Ok ff.degree) {bs : Nat} (hbs : 16 ≤ bs) (m k n : Nat) (hs : Sm ff k) (hs' : Sm ff n) :
    MulEqv ff fid (mulNewtonJohn dbg cb bs) (mzedMulNewtonJohnAcc? cb bs) m k n := by
  intro C A B hC hA hB
  constructor
  · unfold mzedMulNewtonJohnAcc?
    rw [hA.ff_eq, hA.nrows_eq, hA.ncols_eq, hB.ncols_eq]
    by_cases h : ff.degree ≤ m ∧ 0 < k ∧ n = 0
    · obtain ⟨h1, h2, rfl⟩ := h
      rw [if_pos ⟨h1, h2, rfl⟩]
      exact mulNewtonJohn_none dbg cb bs hA hB h1 h2
    · rw [if_neg h]
      by_cases hn : 0 < n
      · exact mulNewtonJohn_eq dbg hcb bs hC hA hB hs' hs hn
      · unfold mulNewtonJohn mzedMulNewtonJohnAcc
        rw [hA.ff_eq, hA.nrows_eq, hA.ncols_eq]
        by_cases h0 : ff.degree > m
        · rw [if_pos h0, if_pos h0]; exact (mulNaive_eq hC hA hB hs' hs).1
        rw [if_neg h0, if_neg h0]
        have hk : k = 0 := by omega
        subst hk
        simp only [Nat.zero_div, Nat.zero_mod, ne_eq, not_true, if_false]
        have e2 : ∀ b n (s : Mzed × (Nat → Njt)), forC (fun g s => njGiant dbg cb A B (g * b) b 0 s) n s = some s := by
          intro b n s
          induction n with
          | zero => rfl
          | succ n ih => unfold forC; rw [ih, Option.bind_some]; rfl
        rw [e2, Option.bind_some]
        have hg : ∀ (g c : Nat) s, M4rie.njGiant cb A B g c 0 s = s := fun g c s => rfl
        simp only [hg]
        rw [forN_id _ _ _ (fun _ _ => rfl)]
        rfl
  · intro R hR
    obtain ⟨X, rfl, rfl, rfl, rfl⟩ := hC
    obtain ⟨Y, rfl, e1, rfl, e3⟩ := hA
    obtain ⟨Z, rfl, e4, e5, e6⟩ := hB
    rw [mulNj_pack hcb hbs X Y Z e1.symm e5.symm] at hR
    split at hR
    · cases hR; exact ⟨_, rfl, rfl, rfl, rfl⟩
    · cases hR

theorem mulInit_eq (C A B : Mzed) (clear : Bool) (hC : Dm ff m n fid C) (hs : Sm ff n) : mulInit C A B clear = mzedMulInit? C A B clear := by
  unfold mulInit mzedMulInit?
  have := (setUi_eq hC hs (0 : Elem ff)).1
  rw [show setUi C 0#64 = some (mzedSetUi C 0#64) from this]

end M4rie.Chk
