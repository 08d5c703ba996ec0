import Verif.Proofs.Heap
import Mathlib.Tactic.ByContra
/-!
# Soundness of the checker of `Proofs/Heap.lean`
-/
namespace M4rie.Res

variable {F : Type}

theorem get_set {a : AState} {x : Nat} (hx : x < a.length) (v : AVal) (y : Nat) : AState.get (a.set x v) y = if y = x then v else AState.get a y := by
  unfold AState.get
  rw [List.getElem?_set]
  by_cases h : x = y
  · subst h; simp [hx]
  · rw [if_neg h, if_neg (fun c => h c.symm)]

theorem get_lt {a : AState} {x : Nat} (h : AState.get a x ≠ .top) : x < a.length := by
  unfold AState.get at h
  by_contra c
  rw [List.getElem?_eq_none (by omega)] at h
  exact h rfl

theorem get_mem {a : AState} {x : Nat} (h : AState.get a x ≠ .top) : AState.get a x ∈ a := by
  have hx := get_lt h
  unfold AState.get
  rw [List.getElem?_eq_getElem hx]
  exact List.getElem_mem hx

theorem noChild_get {a : AState} {x : Nat} (h : noChild a x = true) (y : Nat) (k : Kind) : AState.get a y ≠ .own k (some x) := by
  intro c
  have hm := get_mem (a := a) (x := y) (by rw [c]; intro h; cases h)
  rw [c] at hm
  have := List.all_eq_true.1 h _ hm
  simp [AVal.childOf] at this

theorem parentsOk_get {a : AState} (h : parentsOk a = true) {x y : Nat} {k : Kind} (c : AState.get a x = .own k (some y)) :
    (AState.get a y).isObj = true := by
  have hm := get_mem (a := a) (x := x) (by rw [c]; intro h; cases h)
  rw [c] at hm
  exact List.all_eq_true.1 h _ hm

/-- the concrete state is as described -/
structure Sat (leaks : Bool) (B h : Heap) (vals : List Val) (e : Env) (a : AState) : Prop where
  base : ∀ n o, B n = some o → h n = some o
  own : ∀ x k p, AState.get a x = .own k p → ∃ n, e x = .ptr n ∧ B n = none ∧
    (match p with | none => h n = some ⟨k, none⟩ | some y => ∃ m, e y = .ptr m ∧ h n = some ⟨k, some m⟩ ∧ (AState.get a y).isObj = true)
  bor : ∀ x k i, AState.get a x = .bor k i → vals[i]? = some (e x) ∧ Live B (e x) k
  nul : ∀ x, AState.get a x = .nul → e x = .null
  flg : ∀ x b, AState.get a x = .flg b → e x = .flag b
  inj : ∀ x y k p l q, AState.get a x = .own k p → AState.get a y = .own l q → e x = e y → x = y
  only : ∀ n o, h n = some o → B n = some o ∨ (∃ x k p, AState.get a x = .own k p ∧ e x = .ptr n) ∨ (leaks = true ∧ B n = none ∧ o.parent = none)

theorem Env.set_same (e : Env) (x : Nat) (v : Val) : e.set x v x = v := if_pos rfl
theorem Env.set_ne (e : Env) {x y : Nat} (h : y ≠ x) (v : Val) : e.set x v y = e y := if_neg h
theorem Heap.set_same (h : Heap) (n : Nat) (v : Option Obj) : h.set n v n = v := if_pos rfl
theorem Heap.set_ne (h : Heap) {n m : Nat} (c : m ≠ n) (v : Option Obj) : h.set n v m = h m := if_neg c

section
variable {leaks : Bool} {B h : Heap} {vals : List Val} {e : Env} {a : AState}

/-- owned objects are live -/
theorem Sat.own_live (S : Sat leaks B h vals e a) {x k p} (hx : AState.get a x = .own k p) : ∃ n, e x = .ptr n ∧ B n = none ∧ ∃ q, h n = some ⟨k, q⟩ := by
  obtain ⟨n, h1, h2, h3⟩ := S.own x k p hx
  refine ⟨n, h1, h2, ?_⟩
  cases p with
  | none => exact ⟨_, h3⟩
  | some y => obtain ⟨m, _, h4, _⟩ := h3; exact ⟨_, h4⟩

theorem Sat.obj_live (S : Sat leaks B h vals e a) {x} (hx : (AState.get a x).isObj = true) : ∃ n o, e x = .ptr n ∧ h n = some o := by
  cases hc : AState.get a x with
  | own k p => obtain ⟨n, h1, _, q, h3⟩ := S.own_live hc; exact ⟨n, _, h1, h3⟩
  | bor k i => obtain ⟨_, n, q, h1, h2⟩ := S.bor x k i hc; exact ⟨n, _, h1, S.base n _ h2⟩
  | nul => rw [hc] at hx; cases hx
  | flg b => rw [hc] at hx; cases hx
  | top => rw [hc] at hx; cases hx

theorem Sat.closed (S : Sat leaks B h vals e a) (hB : Closed B) : Closed h := by
  intro n o p hn hp
  rcases S.only n o hn with h1 | ⟨x, k, q, h1, h2⟩ | ⟨_, _, h1⟩
  · cases hb : B p with
    | none => exact absurd hb (hB n o p h1 hp)
    | some o' => rw [S.base p o' hb]; intro c; cases c
  · obtain ⟨n', e1, _, h3⟩ := S.own x k q h1
    have : n' = n := by rw [h2] at e1; cases e1; rfl
    subst this
    cases q with
    | none => rw [hn] at h3; cases h3; cases hp
    | some y =>
      obtain ⟨m, e2, h4, h5⟩ := h3
      rw [hn] at h4
      cases h4
      cases hp
      obtain ⟨n2, o2, e3, h6⟩ := S.obj_live h5
      rw [e2] at e3
      cases e3
      rw [h6]; intro c; cases c
  · rw [h1] at hp; cases hp

/-- weakening -/
theorem leL_get : ∀ {a b : AState}, leL a b = true → ∀ x, leV (AState.get a x) (AState.get b x) = true
  | [], [], _, x => by simp [AState.get, leV]
  | [], _ :: _, h, _ => by cases h
  | _ :: _, [], h, _ => by cases h
  | u :: a, v :: b, h, x => by
    have h' : (leV u v && leL a b) = true := h
    rw [Bool.and_eq_true] at h'
    cases x with
    | zero => exact h'.1
    | succ x => exact leL_get h'.2 x

theorem leV_cases {u v : AVal} (h : leV u v = true) : v = u ∨ (v = .top ∧ u.isOwn = false) := by
  unfold leV at h
  rw [Bool.or_eq_true, Bool.and_eq_true] at h
  rcases h with h | ⟨h, h'⟩
  · exact Or.inl (of_decide_eq_true h).symm
  · exact Or.inr ⟨of_decide_eq_true h, by simpa using h'⟩

theorem Sat.weaken (S : Sat leaks B h vals e a) {b : AState} (hle : le a b = true) : Sat leaks B h vals e b := by
  unfold le at hle
  rw [Bool.and_eq_true] at hle
  have hg := leL_get hle.1
  have hb : ∀ x, AState.get b x ≠ .top → AState.get a x = AState.get b x := by
    intro x hx
    rcases leV_cases (hg x) with c | ⟨c, _⟩
    · exact c.symm
    · exact absurd c hx
  have ho : ∀ x k p, AState.get a x = .own k p → AState.get b x = .own k p := by
    intro x k p hx
    rcases leV_cases (hg x) with c | ⟨_, c⟩
    · rw [c, hx]
    · rw [hx] at c; cases c
  refine ⟨S.base, ?_, ?_, ?_, ?_, ?_, ?_⟩
  · intro x k p hx
    obtain ⟨n, h1, h2, h3⟩ := S.own x k p ((hb x (by rw [hx]; intro c; cases c)).trans hx)
    refine ⟨n, h1, h2, ?_⟩
    cases p with
    | none => exact h3
    | some y => obtain ⟨m, h4, h5, _⟩ := h3; exact ⟨m, h4, h5, parentsOk_get hle.2 hx⟩
  · intro x k i hx
    exact S.bor x k i ((hb x (by rw [hx]; intro c; cases c)).trans hx)
  · intro x hx
    exact S.nul x ((hb x (by rw [hx]; intro c; cases c)).trans hx)
  · intro x c hx
    exact S.flg x c ((hb x (by rw [hx]; intro c; cases c)).trans hx)
  · intro x y k p l q hx hy
    exact S.inj x y k p l q ((hb x (by rw [hx]; intro c; cases c)).trans hx) ((hb y (by rw [hy]; intro c; cases c)).trans hy)
  · intro n o hn
    rcases S.only n o hn with h1 | ⟨x, k, p, h1, h2⟩ | h1
    · exact Or.inl h1
    · exact Or.inr (Or.inl ⟨x, k, p, ho x k p h1, h2⟩)
    · exact Or.inr (Or.inr h1)

theorem assignable_spec {x : Nat} (hs : assignable leaks a x = true) :
    x < a.length ∧ noChild a x = true ∧ (∀ k p, AState.get a x = .own k p → leaks = true ∧ p = none) := by
  unfold assignable at hs
  rw [Bool.and_eq_true, Bool.and_eq_true] at hs
  refine ⟨of_decide_eq_true hs.1.1, hs.1.2, ?_⟩
  intro k p hx
  have := hs.2
  rw [hx] at this
  cases p with
  | none => exact ⟨this, rfl⟩
  | some y => cases this

/-- overwriting a variable -/
theorem Sat.drop (S : Sat leaks B h vals e a) {x : Nat} (hs : assignable leaks a x = true) (v : Val) :
    Sat leaks B h vals (e.set x v) (a.set x .top) := by
  obtain ⟨hx, hc, hl⟩ := assignable_spec hs
  have hne : ∀ {y w}, AState.get (a.set x .top) y = w → w ≠ .top → y ≠ x ∧ AState.get a y = w := by
    intro y w hy hw
    rw [get_set hx] at hy
    by_cases c : y = x
    · rw [if_pos c] at hy; exact absurd hy.symm hw
    · rw [if_neg c] at hy; exact ⟨c, hy⟩
  refine ⟨S.base, ?_, ?_, ?_, ?_, ?_, ?_⟩
  · intro y k p hy
    have c := (hne hy (by intro c; cases c)).1
    replace hy := (hne hy (by intro c; cases c)).2
    obtain ⟨n, h1, h2, h3⟩ := S.own y k p hy
    refine ⟨n, by rw [Env.set_ne _ c]; exact h1, h2, ?_⟩
    cases p with
    | none => exact h3
    | some z =>
      obtain ⟨m, h4, h5, h6⟩ := h3
      have hz : z ≠ x := fun c' => by subst c'; exact noChild_get hc y k hy
      exact ⟨m, by rw [Env.set_ne _ hz]; exact h4, h5, by rw [get_set hx, if_neg hz]; exact h6⟩
  · intro y k i hy
    have c := (hne hy (by intro c; cases c)).1
    replace hy := (hne hy (by intro c; cases c)).2
    rw [Env.set_ne _ c]; exact S.bor y k i hy
  · intro y hy
    have c := (hne hy (by intro c; cases c)).1
    replace hy := (hne hy (by intro c; cases c)).2
    rw [Env.set_ne _ c]; exact S.nul y hy
  · intro y b hy
    have c := (hne hy (by intro c; cases c)).1
    replace hy := (hne hy (by intro c; cases c)).2
    rw [Env.set_ne _ c]; exact S.flg y b hy
  · intro y z k p l q hy hz
    have c := (hne hy (by intro c; cases c)).1
    replace hy := (hne hy (by intro c; cases c)).2
    obtain ⟨c', hz⟩ := hne hz (by intro c; cases c)
    rw [Env.set_ne _ c, Env.set_ne _ c']
    exact S.inj y z k p l q hy hz
  · intro n o hn
    rcases S.only n o hn with h1 | ⟨y, k, p, h1, h2⟩ | h1
    · exact Or.inl h1
    · by_cases c : y = x
      · subst c
        obtain ⟨l1, l2⟩ := hl k p h1
        subst l2
        obtain ⟨n', e1, e2, e3⟩ := S.own y k none h1
        have : n' = n := by rw [h2] at e1; cases e1; rfl
        subst this
        have e3 : h n' = some ⟨k, none⟩ := e3
        rw [hn] at e3
        cases e3
        exact Or.inr (Or.inr ⟨l1, e2, rfl⟩)
      · exact Or.inr (Or.inl ⟨y, k, p, by rw [get_set hx, if_neg c]; exact h1, by rw [Env.set_ne _ c]; exact h2⟩)
    · exact Or.inr (Or.inr h1)

/-- learning about a variable -/
theorem Sat.learn (S : Sat leaks B h vals e a) {x : Nat} (hx : x < a.length) (ht : AState.get a x = .top) {v : AVal} (hv : v.isOwn = false)
    (h1 : ∀ k i, v = .bor k i → vals[i]? = some (e x) ∧ Live B (e x) k) (h2 : v = .nul → e x = .null) (h3 : ∀ b, v = .flg b → e x = .flag b) :
    Sat leaks B h vals e (a.set x v) := by
  have ho : ∀ y k p, AState.get (a.set x v) y = .own k p → AState.get a y = .own k p := by
    intro y k p hy
    rw [get_set hx] at hy
    by_cases c : y = x
    · rw [if_pos c] at hy; rw [hy] at hv; cases hv
    · rw [if_neg c] at hy; exact hy
  have ho' : ∀ y, (AState.get a y).isObj = true → (AState.get (a.set x v) y).isObj = true := by
    intro y hy
    rw [get_set hx]
    by_cases c : y = x
    · subst c; rw [ht] at hy; cases hy
    · rw [if_neg c]; exact hy
  refine ⟨S.base, ?_, ?_, ?_, ?_, ?_, ?_⟩
  · intro y k p hy
    obtain ⟨n, e1, e2, e3⟩ := S.own y k p (ho y k p hy)
    refine ⟨n, e1, e2, ?_⟩
    cases p with
    | none => exact e3
    | some z => obtain ⟨m, e4, e5, e6⟩ := e3; exact ⟨m, e4, e5, ho' z e6⟩
  · intro y k i hy
    rw [get_set hx] at hy
    by_cases c : y = x
    · rw [if_pos c] at hy; subst c; exact h1 k i hy
    · rw [if_neg c] at hy; exact S.bor y k i hy
  · intro y hy
    rw [get_set hx] at hy
    by_cases c : y = x
    · rw [if_pos c] at hy; subst c; exact h2 hy
    · rw [if_neg c] at hy; exact S.nul y hy
  · intro y b hy
    rw [get_set hx] at hy
    by_cases c : y = x
    · rw [if_pos c] at hy; subst c; exact h3 b hy
    · rw [if_neg c] at hy; exact S.flg y b hy
  · intro y z k p l q hy hz
    exact S.inj y z k p l q (ho _ _ _ hy) (ho _ _ _ hz)
  · intro n o hn
    rcases S.only n o hn with e1 | ⟨y, k, p, e1, e2⟩ | e1
    · exact Or.inl e1
    · have c : y ≠ x := fun c => by subst c; rw [ht] at e1; cases e1
      exact Or.inr (Or.inl ⟨y, k, p, by rw [get_set hx, if_neg c]; exact e1, e2⟩)
    · exact Or.inr (Or.inr e1)

theorem set_set (a : AState) (x : Nat) (u v : AVal) : (a.set x u).set x v = a.set x v := by simp

theorem get_set_same {a : AState} {x : Nat} (hx : x < a.length) (v : AVal) : AState.get (a.set x v) x = v := by rw [get_set hx, if_pos rfl]

/-- assignment of something that is not owned -/
theorem Sat.assign (S : Sat leaks B h vals e a) {x : Nat} (hs : assignable leaks a x = true) {u : Val} {v : AVal} (hv : v.isOwn = false)
    (h1 : ∀ k i, v = .bor k i → vals[i]? = some u ∧ Live B u k) (h2 : v = .nul → u = .null) (h3 : ∀ b, v = .flg b → u = .flag b) :
    Sat leaks B h vals (e.set x u) (a.set x v) := by
  have hx := (assignable_spec hs).1
  have := (S.drop hs u).learn (x := x) (v := v) (by rw [List.length_set]; exact hx) (get_set_same hx _) hv
    (by rw [Env.set_same]; exact h1) (by rw [Env.set_same]; exact h2) (by rw [Env.set_same]; exact h3)
  rwa [set_set] at this

/-- a new object or window -/
theorem Sat.fresh (S : Sat leaks B h vals e a) {x : Nat} (hs : assignable leaks a x = true) {n : Nat} (hn : h n = none) (k : Kind) (p : Option Nat)
    {q : Option Nat} (hp : match p with | none => q = none | some y => y ≠ x ∧ (AState.get a y).isObj = true ∧ ∃ m, e y = .ptr m ∧ q = some m) :
    Sat leaks B (h.set n (some ⟨k, q⟩)) vals (e.set x (.ptr n)) (a.set x (.own k p)) := by
  obtain ⟨hx, hc, _⟩ := assignable_spec hs
  have D := S.drop hs (.ptr n)
  have hBn : B n = none := by
    cases hb : B n with
    | none => rfl
    | some o => rw [S.base n o hb] at hn; cases hn
  have hl : ∀ {m o}, h m = some o → m ≠ n := by
    intro m o hm c
    rw [c, hn] at hm
    cases hm
  have hold : ∀ {y w}, y ≠ x → AState.get (a.set x (.own k p)) y = w → AState.get a y = w := by
    intro y w c hy
    rw [get_set hx, if_neg c] at hy
    exact hy
  refine ⟨?_, ?_, ?_, ?_, ?_, ?_, ?_⟩
  · intro m o hm
    have := S.base m o hm
    rw [Heap.set_ne _ (hl this)]; exact this
  · intro y l r hy
    by_cases c : y = x
    · subst c
      rw [get_set_same hx] at hy
      cases hy
      refine ⟨n, Env.set_same _ _ _, hBn, ?_⟩
      cases p with
      | none => have hp : q = none := hp; subst hp; exact Heap.set_same _ _ _
      | some z =>
        obtain ⟨c, h1, m, h2, h3⟩ := hp
        subst h3
        exact ⟨m, by rw [Env.set_ne _ c]; exact h2, Heap.set_same _ _ _, by rw [get_set hx, if_neg c]; exact h1⟩
    · obtain ⟨m, e1, e2, e3⟩ := S.own y l r (hold c hy)
      refine ⟨m, by rw [Env.set_ne _ c]; exact e1, e2, ?_⟩
      cases r with
      | none => have e3 : h m = _ := e3; show (h.set n _) m = _; rw [Heap.set_ne _ (hl e3)]; exact e3
      | some z =>
        obtain ⟨m', e4, e5, e6⟩ := e3
        have hz : z ≠ x := fun c' => by subst c'; exact noChild_get hc y l (hold c hy)
        exact ⟨m', by rw [Env.set_ne _ hz]; exact e4, by rw [Heap.set_ne _ (hl e5)]; exact e5, by rw [get_set hx, if_neg hz]; exact e6⟩
  · intro y l i hy
    by_cases c : y = x
    · subst c; rw [get_set_same hx] at hy; cases hy
    · rw [Env.set_ne _ c]; exact S.bor y l i (hold c hy)
  · intro y hy
    by_cases c : y = x
    · subst c; rw [get_set_same hx] at hy; cases hy
    · rw [Env.set_ne _ c]; exact S.nul y (hold c hy)
  · intro y b hy
    by_cases c : y = x
    · subst c; rw [get_set_same hx] at hy; cases hy
    · rw [Env.set_ne _ c]; exact S.flg y b (hold c hy)
  · have key : ∀ y l r, y ≠ x → AState.get (a.set x (.own k p)) y = .own l r → e y ≠ .ptr n := by
      intro y l r c hy he
      obtain ⟨m, e1, _, q', e3⟩ := S.own_live (hold c hy)
      rw [he] at e1
      cases e1
      exact hl e3 rfl
    intro y z l r l' r' hy hz
    by_cases c : y = x
    · by_cases c' : z = x
      · intro _; rw [c, c']
      · subst c
        rw [Env.set_same, Env.set_ne _ c']
        intro he
        exact absurd he.symm (key z l' r' c' hz)
    · by_cases c' : z = x
      · subst c'
        rw [Env.set_same, Env.set_ne _ c]
        intro he
        exact absurd he (key y l r c hy)
      · rw [Env.set_ne _ c, Env.set_ne _ c']
        exact S.inj y z l r l' r' (hold c hy) (hold c' hz)
  · intro m o hm
    by_cases c : m = n
    · subst c
      exact Or.inr (Or.inl ⟨x, k, p, get_set_same hx _, Env.set_same _ _ _⟩)
    · rw [Heap.set_ne _ c] at hm
      rcases D.only m o hm with h1 | ⟨y, l, r, h1, h2⟩ | h1
      · exact Or.inl h1
      · have c' : y ≠ x := fun c' => by subst c'; rw [get_set_same hx] at h1; cases h1
        refine Or.inr (Or.inl ⟨y, l, r, ?_, h2⟩)
        rw [get_set hx, if_neg c'] at h1 ⊢
        exact h1
      · exact Or.inr (Or.inr h1)

/-- an owned object without windows in owned variables has no windows at all -/
theorem Sat.noWindow (S : Sat leaks B h vals e a) (hB : Closed B) {x : Nat} {k p} (hx : AState.get a x = .own k p) (hc : noChild a x = true) : NoWindow h (e x) := by
  intro n hn m o hm ho
  obtain ⟨n', e1, e2, _⟩ := S.own_live hx
  have : n' = n := by rw [hn] at e1; cases e1; rfl
  subst this
  rcases S.only m o hm with h1 | ⟨y, l, r, h1, h2⟩ | ⟨_, _, h1⟩
  · exact hB m o n' h1 ho e2
  · obtain ⟨m', e3, e4, e5⟩ := S.own y l r h1
    have : m' = m := by rw [h2] at e3; cases e3; rfl
    subst this
    cases r with
    | none => have e5 : h m' = _ := e5; rw [hm] at e5; cases e5; cases ho
    | some z =>
      obtain ⟨n2, e6, e7, e8⟩ := e5
      rw [hm] at e7
      cases e7
      cases ho
      cases hz : AState.get a z with
      | own l2 r2 =>
        have : z = x := S.inj z x l2 r2 k p hz hx (by rw [e6, hn])
        subst this
        exact noChild_get hc y l h1
      | bor l2 i2 =>
        obtain ⟨_, n3, q3, e9, e10⟩ := S.bor z l2 i2 hz
        rw [e6] at e9
        cases e9
        rw [e2] at e10
        cases e10
      | nul => rw [hz] at e8; cases e8
      | flg b => rw [hz] at e8; cases e8
      | top => rw [hz] at e8; cases e8
  · rw [h1] at ho; cases ho

/-- releasing -/
theorem Sat.del (S : Sat leaks B h vals e a) {x : Nat} {k p} (hx : AState.get a x = .own k p) (hc : noChild a x = true) {n : Nat} (hn : e x = .ptr n) :
    Sat leaks B (h.set n none) vals e (a.set x .top) := by
  have hlt := get_lt (a := a) (x := x) (by rw [hx]; intro c; cases c)
  obtain ⟨n', e1, hBn, _⟩ := S.own_live hx
  have : n' = n := by rw [hn] at e1; cases e1; rfl
  subst this
  have hne : ∀ {y w}, AState.get (a.set x .top) y = w → w ≠ .top → y ≠ x ∧ AState.get a y = w := by
    intro y w hy hw
    rw [get_set hlt] at hy
    by_cases c : y = x
    · rw [if_pos c] at hy; exact absurd hy.symm hw
    · rw [if_neg c] at hy; exact ⟨c, hy⟩
  have hkeep : ∀ y l r, y ≠ x → AState.get a y = .own l r → e y ≠ .ptr n' := by
    intro y l r c hy he
    exact c (S.inj y x l r k p hy hx (by rw [he, hn]))
  refine ⟨?_, ?_, ?_, ?_, ?_, ?_, ?_⟩
  · intro m o hm
    have c : m ≠ n' := fun c => by subst c; rw [hBn] at hm; cases hm
    rw [Heap.set_ne _ c]
    exact S.base m o hm
  · intro y l r hy
    have c := (hne hy (by intro c; cases c)).1
    replace hy := (hne hy (by intro c; cases c)).2
    obtain ⟨m, e3, e4, e5⟩ := S.own y l r hy
    have cm : m ≠ n' := fun c' => hkeep y l r c hy (by rw [e3, c'])
    refine ⟨m, e3, e4, ?_⟩
    cases r with
    | none => have e5 : h m = _ := e5; show (h.set n' none) m = _; rw [Heap.set_ne _ cm]; exact e5
    | some z =>
      obtain ⟨m', e6, e7, e8⟩ := e5
      have hz : z ≠ x := fun c' => by subst c'; exact noChild_get hc y l hy
      exact ⟨m', e6, by rw [Heap.set_ne _ cm]; exact e7, by rw [get_set hlt, if_neg hz]; exact e8⟩
  · intro y l i hy
    have c := (hne hy (by intro c; cases c)).1
    replace hy := (hne hy (by intro c; cases c)).2
    exact S.bor y l i hy
  · intro y hy
    have c := (hne hy (by intro c; cases c)).1
    replace hy := (hne hy (by intro c; cases c)).2
    exact S.nul y hy
  · intro y b hy
    have c := (hne hy (by intro c; cases c)).1
    replace hy := (hne hy (by intro c; cases c)).2
    exact S.flg y b hy
  · intro y z l r l' r' hy hz
    have c := (hne hy (by intro c; cases c)).1
    replace hy := (hne hy (by intro c; cases c)).2
    obtain ⟨c', hz⟩ := hne hz (by intro c; cases c)
    exact S.inj y z l r l' r' hy hz
  · intro m o hm
    have c : m ≠ n' := fun c => by subst c; rw [Heap.set_same] at hm; cases hm
    rw [Heap.set_ne _ c] at hm
    rcases S.only m o hm with h1 | ⟨y, l, r, h1, h2⟩ | h1
    · exact Or.inl h1
    · have c' : y ≠ x := fun c' => by
        subst c'
        rw [hn] at h2
        cases h2
        exact c rfl
      exact Or.inr (Or.inl ⟨y, l, r, by rw [get_set hlt, if_neg c']; exact h1, h2⟩)
    · exact Or.inr (Or.inr h1)

/-- moving ownership -/
theorem Sat.move (S : Sat leaks B h vals e a) {x y : Nat} (hxy : x ≠ y) {k p} (hy : AState.get a y = .own k p) (hc : noChild a y = true)
    (hs : assignable leaks a x = true) : Sat leaks B h vals (e.set x (e y)) ((a.set y .top).set x (.own k p)) := by
  have D := S.drop hs (e y)
  have hx := (assignable_spec hs).1
  have hcx := (assignable_spec hs).2.1
  have hlt := get_lt (a := a) (x := y) (by rw [hy]; intro c; cases c)
  have hg : ∀ z, AState.get ((a.set y .top).set x (.own k p)) z = if z = x then .own k p else if z = y then .top else AState.get a z := by
    intro z
    rw [get_set (by rw [List.length_set]; exact hx), get_set hlt]
  have hg' : ∀ z, AState.get (a.set x .top) z = if z = x then .top else AState.get a z := get_set hx _
  have hold : ∀ {z w}, z ≠ x → w ≠ .top → AState.get ((a.set y .top).set x (.own k p)) z = w → z ≠ y ∧ AState.get a z = w := by
    intro z w c hw hz
    rw [hg, if_neg c] at hz
    by_cases c' : z = y
    · rw [if_pos c'] at hz; exact absurd hz.symm hw
    · rw [if_neg c'] at hz; exact ⟨c', hz⟩
  have hpar : ∀ {z l v}, AState.get a z = .own l (some v) → v ≠ x ∧ v ≠ y := by
    intro z l v hz
    exact ⟨fun c => by subst c; exact noChild_get hcx z l hz, fun c => by subst c; exact noChild_get hc z l hz⟩
  refine ⟨S.base, ?_, ?_, ?_, ?_, ?_, ?_⟩
  · intro z l r hz
    by_cases c : z = x
    · subst c
      rw [hg, if_pos rfl] at hz
      cases hz
      obtain ⟨n, e1, e2, e3⟩ := S.own y _ _ hy
      refine ⟨n, by rw [Env.set_same]; exact e1, e2, ?_⟩
      cases p with
      | none => exact e3
      | some v =>
        obtain ⟨m, e4, e5, e6⟩ := e3
        obtain ⟨c1, c2⟩ := hpar hy
        exact ⟨m, by rw [Env.set_ne _ c1]; exact e4, e5, by rw [hg, if_neg c1, if_neg c2]; exact e6⟩
    · obtain ⟨_, hz⟩ := hold c (by intro c; cases c) hz
      obtain ⟨n, e1, e2, e3⟩ := S.own z l r hz
      refine ⟨n, by rw [Env.set_ne _ c]; exact e1, e2, ?_⟩
      cases r with
      | none => exact e3
      | some v =>
        obtain ⟨m, e4, e5, e6⟩ := e3
        obtain ⟨c1, c2⟩ := hpar hz
        exact ⟨m, by rw [Env.set_ne _ c1]; exact e4, e5, by rw [hg, if_neg c1, if_neg c2]; exact e6⟩
  · intro z l i hz
    by_cases c : z = x
    · subst c; rw [hg, if_pos rfl] at hz; cases hz
    · rw [Env.set_ne _ c]; exact S.bor z l i (hold c (by intro c; cases c) hz).2
  · intro z hz
    by_cases c : z = x
    · subst c; rw [hg, if_pos rfl] at hz; cases hz
    · rw [Env.set_ne _ c]; exact S.nul z (hold c (by intro c; cases c) hz).2
  · intro z b hz
    by_cases c : z = x
    · subst c; rw [hg, if_pos rfl] at hz; cases hz
    · rw [Env.set_ne _ c]; exact S.flg z b (hold c (by intro c; cases c) hz).2
  · intro z z' l r l' r' hz hz'
    by_cases c : z = x
    · by_cases c' : z' = x
      · intro _; rw [c, c']
      · subst c
        obtain ⟨c2, hz'⟩ := hold c' (by intro c; cases c) hz'
        rw [Env.set_same, Env.set_ne _ c']
        intro he
        exact absurd (S.inj y z' _ _ _ _ hy hz' he).symm c2
    · have c2 := (hold c (by intro c; cases c) hz).1
      replace hz := (hold c (by intro c; cases c) hz).2
      by_cases c' : z' = x
      · subst c'
        rw [Env.set_same, Env.set_ne _ c]
        intro he
        exact absurd (S.inj z y _ _ _ _ hz hy he) c2
      · obtain ⟨_, hz'⟩ := hold c' (by intro c; cases c) hz'
        rw [Env.set_ne _ c, Env.set_ne _ c']
        exact S.inj z z' _ _ _ _ hz hz'
  · intro m o hm
    rcases D.only m o hm with h1 | ⟨z, l, r, h1, h2⟩ | h1
    · exact Or.inl h1
    · rw [hg'] at h1
      by_cases c : z = x
      · rw [if_pos c] at h1; cases h1
      · rw [if_neg c] at h1
        rw [Env.set_ne _ c] at h2
        by_cases c' : z = y
        · subst c'
          exact Or.inr (Or.inl ⟨x, k, p, by rw [hg, if_pos rfl], by rw [Env.set_same]; exact h2⟩)
        · exact Or.inr (Or.inl ⟨z, l, r, by rw [hg, if_neg c, if_neg c']; exact h1, by rw [Env.set_ne _ c]; exact h2⟩)
    · exact Or.inr (Or.inr h1)

/-- other objects appear (leaked by a callee) -/
theorem Sat.grow (S : Sat leaks B h vals e a) {h' : Heap} {l : Bool} (hl : l = true → leaks = true) (hg : Same l h h') : Sat leaks B h' vals e a := by
  unfold Same at hg
  cases l with
  | false => have hg : h' = h := hg; rw [hg]; exact S
  | true =>
    obtain ⟨h1, h2⟩ : (∀ n o, h n = some o → h' n = some o) ∧ (∀ n o, h' n = some o → h n = some o ∨ (h n = none ∧ o.parent = none)) := hg
    refine ⟨fun n o hn => h1 n o (S.base n o hn), ?_, S.bor, S.nul, S.flg, S.inj, ?_⟩
    · intro x k p hx
      obtain ⟨n, e1, e2, e3⟩ := S.own x k p hx
      refine ⟨n, e1, e2, ?_⟩
      cases p with
      | none => exact h1 n _ e3
      | some y => obtain ⟨m, e4, e5, e6⟩ := e3; exact ⟨m, e4, h1 n _ e5, e6⟩
    · intro n o hn
      rcases h2 n o hn with h3 | ⟨h3, h4⟩
      · exact S.only n o h3
      · refine Or.inr (Or.inr ⟨hl rfl, ?_, h4⟩)
        cases hb : B n with
        | none => rfl
        | some o' => rw [S.base n o' hb] at h3; cases h3

/-- a new object nobody refers to (the ignored result of a call) -/
theorem Sat.lost (S : Sat true B h vals e a) {n : Nat} (hn : h n = none) (k : Kind) : Sat true B (h.set n (some ⟨k, none⟩)) vals e a := by
  refine S.grow (l := true) (fun _ => rfl) ?_
  show (∀ m o, h m = some o → _) ∧ _
  refine ⟨?_, ?_⟩
  · intro m o hm
    have c : m ≠ n := fun c => by rw [c, hn] at hm; cases hm
    rw [Heap.set_ne _ c]; exact hm
  · intro m o hm
    by_cases c : m = n
    · subst c; rw [Heap.set_same] at hm; cases hm; exact Or.inr ⟨hn, rfl⟩
    · rw [Heap.set_ne _ c] at hm; exact Or.inl hm

end

theorem joinR_left {r s : Option AState} {t : Option AState} (hj : joinR r s = some t) {a : AState} (hr : r = some a) :
    ∃ b, t = some b ∧ (b = a ∨ le a b = true) := by
  subst hr
  cases s with
  | none => have : some (some a) = some t := hj; cases this; exact ⟨a, rfl, Or.inl rfl⟩
  | some b =>
    have hj : (match joinL a b with | some c => if le a c && le b c then some (some c) else none | none => none) = some t := hj
    cases hc : joinL a b with
    | none => rw [hc] at hj; cases hj
    | some c =>
      rw [hc] at hj
      by_cases hh : (le a c && le b c) = true
      · simp only [hh, if_true] at hj
        cases hj
        rw [Bool.and_eq_true] at hh
        exact ⟨c, rfl, Or.inr hh.1⟩
      · simp only [hh] at hj; cases hj

theorem joinR_right {r s : Option AState} {t : Option AState} (hj : joinR r s = some t) {a : AState} (hs : s = some a) :
    ∃ b, t = some b ∧ (b = a ∨ le a b = true) := by
  subst hs
  cases r with
  | none => have : some (some a) = some t := hj; cases this; exact ⟨a, rfl, Or.inl rfl⟩
  | some b =>
    have hj : (match joinL b a with | some c => if le b c && le a c then some (some c) else none | none => none) = some t := hj
    cases hc : joinL b a with
    | none => rw [hc] at hj; cases hj
    | some c =>
      rw [hc] at hj
      by_cases hh : (le b c && le a c) = true
      · simp only [hh, if_true] at hj
        cases hj
        rw [Bool.and_eq_true] at hh
        exact ⟨c, rfl, Or.inr hh.2⟩
      · simp only [hh] at hj; cases hj

/-- the arguments of a call are as the signature wants them -/
theorem argsMatch_ok {leaks : Bool} {B h : Heap} {vals : List Val} {e : Env} {a : AState} (S : Sat leaks B h vals e a) :
    ∀ (ks : List Kind) (bs : List Bool) (args : List (Option Nat)), argsMatch ks bs (args.map (argKnown a)) = true →
      ArgsOk h ks bs (args.map (evalArg e))
  | [], [], [], _ => ⟨rfl, rfl, fun i k v h => by cases i <;> cases h⟩
  | [], [], _ :: _, h => by cases h
  | [], _ :: _, [], h => by cases h
  | [], _ :: _, _ :: _, h => by cases h
  | _ :: _, [], [], h => by cases h
  | _ :: _, [], _ :: _, h => by cases h
  | _ :: _, _ :: _, [], h => by cases h
  | k :: ks, b :: bs, x :: args, hm => by
    have hm : ((match argKnown a x with | .nul => b | .own k' _ => !b && decide (k' = k) | .bor k' _ => !b && decide (k' = k) | _ => false) &&
      argsMatch ks bs (args.map (argKnown a))) = true := hm
    rw [Bool.and_eq_true] at hm
    obtain ⟨i1, i2, i3⟩ := argsMatch_ok S ks bs args hm.2
    refine ⟨by simp [i1], by rw [List.map_cons, List.length_cons, i2, List.length_cons], ?_⟩
    intro i l v hk hv
    cases i with
    | succ i => exact i3 i l v hk hv
    | zero =>
      have hk : some k = some l := hk
      have hv : some (evalArg e x) = some v := hv
      cases hk
      cases hv
      show (some b = some true ∧ _) ∨ (some b = some false ∧ _)
      cases x with
      | none =>
        have : b = true := hm.1
        exact Or.inl ⟨by rw [this], rfl⟩
      | some x =>
        have hm1 := hm.1
        change (match AState.get a x with | .nul => b | .own k' _ => !b && decide (k' = k) | .bor k' _ => !b && decide (k' = k) | _ => false) = true at hm1
        cases hx : AState.get a x with
        | own k' p =>
          rw [hx] at hm1
          simp only [Bool.and_eq_true, Bool.not_eq_true', decide_eq_true_eq] at hm1
          obtain ⟨n, e1, _, q, e3⟩ := S.own_live hx
          exact Or.inr ⟨by rw [hm1.1], n, q, e1, by rw [e3, hm1.2]⟩
        | bor k' j =>
          rw [hx] at hm1
          simp only [Bool.and_eq_true, Bool.not_eq_true', decide_eq_true_eq] at hm1
          obtain ⟨_, n, q, e1, e3⟩ := S.bor x k' j hx
          exact Or.inr ⟨by rw [hm1.1], n, q, e1, by rw [S.base n _ e3, hm1.2]⟩
        | nul =>
          rw [hx] at hm1
          have hm1 : b = true := hm1
          exact Or.inl ⟨by rw [hm1], S.nul x hx⟩
        | flg c => rw [hx] at hm1; cases hm1
        | top => rw [hx] at hm1; cases hm1

theorem initA_get (ks : List Kind) (bs : List Bool) : ∀ (i x : Nat), bs.length = ks.length → ∀ (l : List AVal), (∀ v ∈ l, v = .top) →
    AState.get (initA i ks bs ++ l) x = (match ks[x]?, bs[x]? with | some k, some b => if b then .nul else .bor k (i + x) | _, _ => .top) := by
  induction ks generalizing bs with
  | nil =>
    intro i x _ l hl
    show AState.get l x = _
    unfold AState.get
    cases h : l[x]? with
    | none => rfl
    | some v => exact hl v (List.mem_of_getElem? h)
  | cons k ks ih =>
    intro i x hb l hl
    cases bs with
    | nil => cases hb
    | cons b bs =>
      cases x with
      | zero => cases b <;> rfl
      | succ x =>
        have : AState.get (initA i (k :: ks) (b :: bs) ++ l) (x + 1) = AState.get (initA (i + 1) ks bs ++ l) x := rfl
        rw [this, ih bs (i + 1) x (by simpa using hb) l hl]
        show _ = (match ks[x]?, bs[x]? with | some k, some b => if b then AVal.nul else AVal.bor k (i + (x + 1)) | _, _ => AVal.top)
        rw [show i + 1 + x = i + (x + 1) by omega]

theorem init_sat {h : Heap} {ks : List Kind} {bs : List Bool} {vals : List Val} (leaks : Bool) (ha : ArgsOk h ks bs vals) :
    Sat leaks h h vals (bindArgs vals) (initA 0 ks bs ++ List.replicate nLocals .top) := by
  obtain ⟨h1, h2, h3⟩ := ha
  have hg := fun x => initA_get ks bs 0 x h1 (List.replicate nLocals .top) (fun v hv => List.eq_of_mem_replicate hv)
  have hv : ∀ x k, ks[x]? = some k → ∃ v, vals[x]? = some v ∧ bindArgs vals x = v := by
    intro x k hk
    have hx : x < vals.length := by
      rw [h2]
      by_contra c
      rw [List.getElem?_eq_none (by omega)] at hk
      cases hk
    refine ⟨vals[x], List.getElem?_eq_getElem hx, ?_⟩
    unfold bindArgs
    rw [List.getElem?_eq_getElem hx]
    rfl
  refine ⟨fun _ _ h => h, ?_, ?_, ?_, ?_, ?_, fun n o h => Or.inl h⟩
  · intro x k p hx
    rw [hg x] at hx
    split at hx
    · split at hx <;> cases hx
    · cases hx
  · intro x k i hx
    rw [hg x] at hx
    split at hx
    · rename_i k' b' hk hb
      split at hx
      · cases hx
      · rename_i hbf
        cases hx
        obtain ⟨v, e1, e2⟩ := hv x _ hk
        rw [e2, Nat.zero_add]
        refine ⟨e1, ?_⟩
        rcases h3 x _ v hk e1 with ⟨c, _⟩ | ⟨_, c⟩
        · rw [hb] at c; cases c; exact absurd rfl hbf
        · exact c
    · cases hx
  · intro x hx
    rw [hg x] at hx
    split at hx
    · rename_i k' b' hk hb
      split at hx
      · rename_i hbt
        obtain ⟨v, e1, e2⟩ := hv x _ hk
        rw [e2]
        rcases h3 x _ v hk e1 with ⟨_, c⟩ | ⟨c, _⟩
        · exact c
        · rw [hb] at c; cases c; cases hbt
      · cases hx
    · cases hx
  · intro x b hx
    rw [hg x] at hx
    split at hx
    · split at hx <;> cases hx
    · cases hx
  · intro x y k p l q hx
    rw [hg x] at hx
    split at hx
    · split at hx <;> cases hx
    · cases hx

theorem restOk_get {leaks : Bool} {a : AState} {sk : Option Nat} (hr : restOk leaks a sk = true) {x : Nat} {k p} (hx : AState.get a x = .own k p)
    (hs : sk ≠ some x) : leaks = true ∧ p = none := by
  have hlt := get_lt (a := a) (x := x) (by rw [hx]; intro c; cases c)
  have := List.all_eq_true.1 hr x (List.mem_range.2 hlt)
  rw [Bool.or_eq_true] at this
  rcases this with c | c
  · exact absurd (of_decide_eq_true c) hs
  · rw [hx] at c
    cases p with
    | none => exact ⟨c, rfl⟩
    | some y => cases c

/-- at the end of a routine -/
theorem final_ok {B h' : Heap} {vals : List Val} {e : Env} {a : AState} {f : Fn F} {s : Sig} (S : Sat s.leaks B h' vals e a) (hf : finalOk f s a = true) :
    Returns B vals (f.resultOf e) h' s := by
  have hsame : restOk s.leaks a none = true → Same s.leaks B h' := by
    intro hr
    unfold Same
    cases hl : s.leaks with
    | true =>
      show _ ∧ _
      refine ⟨S.base, ?_⟩
      intro n o hn
      rcases S.only n o hn with h1 | ⟨x, k, p, h1, h2⟩ | ⟨_, h1, h2⟩
      · exact Or.inl h1
      · obtain ⟨_, c⟩ := restOk_get hr h1 (by intro c; cases c)
        subst c
        obtain ⟨n', e1, e2, e3⟩ := S.own x k none h1
        have : n' = n := by rw [h2] at e1; cases e1; rfl
        subst this
        have e3 : h' n' = some ⟨k, none⟩ := e3
        rw [hn] at e3
        cases e3
        exact Or.inr ⟨e2, rfl⟩
      · exact Or.inr ⟨h1, h2⟩
    | false =>
      show h' = B
      funext n
      cases hn : h' n with
      | none =>
        cases hb : B n with
        | none => rfl
        | some o => rw [S.base n o hb] at hn; cases hn
      | some o =>
        rcases S.only n o hn with h1 | ⟨x, k, p, h1, h2⟩ | ⟨h1, _⟩
        · exact h1.symm
        · obtain ⟨c, _⟩ := restOk_get hr h1 (by intro c; cases c)
          rw [hl] at c; cases c
        · rw [hl] at h1; cases h1
  unfold finalOk at hf
  unfold Returns
  cases hgv : s.gives with
  | nothing => rw [hgv] at hf; exact hsame hf
  | arg i =>
    rw [hgv] at hf
    have hf : (restOk s.leaks a none && (match f.result with
      | some x => (match AState.get a x with | .bor _ j => decide (j = i) | _ => false) | none => false)) = true := hf
    rw [Bool.and_eq_true] at hf
    refine ⟨hsame hf.1, ?_⟩
    have h2 := hf.2
    unfold Fn.resultOf
    cases hres : f.result with
    | none => rw [hres] at h2; cases h2
    | some x =>
      rw [hres] at h2
      have h2 : (match AState.get a x with | .bor _ j => decide (j = i) | _ => false) = true := h2
      cases hx : AState.get a x with
      | bor k j =>
        rw [hx] at h2
        have h2 : decide (j = i) = true := h2
        rw [← of_decide_eq_true h2]
        exact (S.bor x k j hx).1
      | own k p => rw [hx] at h2; cases h2
      | nul => rw [hx] at h2; cases h2
      | flg b => rw [hx] at h2; cases h2
      | top => rw [hx] at h2; cases h2
  | fresh k =>
    rw [hgv] at hf
    have hf : (match f.result with | some x => decide (AState.get a x = .own k none) && restOk s.leaks a (some x) | none => false) = true := hf
    unfold Fn.resultOf
    cases hres : f.result with
    | none => rw [hres] at hf; cases hf
    | some x =>
      rw [hres] at hf
      have hf : (decide (AState.get a x = .own k none) && restOk s.leaks a (some x)) = true := hf
      rw [Bool.and_eq_true] at hf
      have hx := of_decide_eq_true hf.1
      obtain ⟨n, e1, e2, e3⟩ := S.own x k none hx
      have e3 : h' n = some ⟨k, none⟩ := e3
      refine ⟨n, e1, e2, ?_⟩
      have hcase : ∀ m o, h' m = some o → B m = some o ∨ m = n ∨ (s.leaks = true ∧ B m = none ∧ o.parent = none) := by
        intro m o hm
        rcases S.only m o hm with h1 | ⟨y, l, p, h1, h2⟩ | h1
        · exact Or.inl h1
        · by_cases c : y = x
          · subst c
            rw [e1] at h2
            cases h2
            exact Or.inr (Or.inl rfl)
          · obtain ⟨c1, c2⟩ := restOk_get hf.2 h1 (by intro c'; cases c'; exact c rfl)
            subst c2
            obtain ⟨n', e4, e5, e6⟩ := S.own y l none h1
            have : n' = m := by rw [h2] at e4; cases e4; rfl
            subst this
            have e6 : h' n' = some ⟨l, none⟩ := e6
            rw [hm] at e6
            cases e6
            exact Or.inr (Or.inr ⟨c1, e5, rfl⟩)
        · exact Or.inr (Or.inr h1)
      unfold Same
      cases hl : s.leaks with
      | true =>
        show _ ∧ _
        refine ⟨?_, ?_⟩
        · intro m o hm
          by_cases c : m = n
          · subst c; rw [Heap.set_same] at hm; cases hm; exact e3
          · rw [Heap.set_ne _ c] at hm; exact S.base m o hm
        · intro m o hm
          by_cases c : m = n
          · subst c; rw [e3] at hm; cases hm; exact Or.inl (Heap.set_same _ _ _)
          · rw [Heap.set_ne _ c]
            rcases hcase m o hm with h1 | h1 | ⟨_, h1, h2⟩
            · exact Or.inl h1
            · exact absurd h1 c
            · exact Or.inr ⟨h1, h2⟩
      | false =>
        show h' = _
        funext m
        by_cases c : m = n
        · subst c; rw [Heap.set_same]; exact e3
        · rw [Heap.set_ne _ c]
          cases hm : h' m with
          | none =>
            cases hb : B m with
            | none => rfl
            | some o => rw [S.base m o hb] at hm; cases hm
          | some o =>
            rcases hcase m o hm with h1 | h1 | ⟨h1, _⟩
            · exact h1.symm
            · exact absurd h1 c
            · rw [hl] at h1; cases h1

/-- the outcome is as the checker says -/
def OutOk (leaks : Bool) (B : Heap) (vals : List Val) (r : Option AState) : Out → Prop
  | .fault => False
  | .dead => True
  | .ok e h => ∃ a, r = some a ∧ Sat leaks B h vals e a

theorem OutOk.weaken {leaks B vals a b o} (hle : a = b ∨ le a b = true) (h : OutOk leaks B vals (some a) o) : OutOk leaks B vals (some b) o := by
  cases o with
  | fault => exact h
  | dead => trivial
  | ok e h' =>
    obtain ⟨c, hc, S⟩ := h
    cases hc
    rcases hle with h1 | h1
    · subst h1; exact ⟨_, rfl, S⟩
    · exact ⟨_, rfl, S.weaken h1⟩

theorem afterCall_ok {leaks : Bool} {B h h1 : Heap} {vals vals' : List Val} {e : Env} {a : AState} (S : Sat leaks B h vals e a) {r : Option Nat}
    {args : List (Option Nat)} {s : Sig} {v : Val} (hv : vals' = args.map (evalArg e)) (hret : Returns h vals' v h1 s) {t : Option AState}
    (hc : afterCall leaks a r args s = some t) : ∃ b, t = some b ∧ Sat leaks B h1 vals (e.setOpt r v) b := by
  unfold afterCall at hc
  by_cases hl : (s.leaks && !leaks) = true
  · rw [if_pos hl] at hc; cases hc
  rw [if_neg hl] at hc
  have hl' : s.leaks = true → leaks = true := by
    intro c
    rw [c] at hl
    simpa using hl
  have hassign : ∀ {x w t}, assign leaks a x w = some t → assignable leaks a x = true ∧ t = some (a.set x w) := by
    intro x w t hh
    unfold assign at hh
    by_cases c : assignable leaks a x = true
    · rw [if_pos c] at hh; cases hh; exact ⟨c, rfl⟩
    · rw [if_neg c] at hh; cases hh
  unfold Returns at hret
  cases hg : s.gives with
  | nothing =>
    rw [hg] at hret hc
    have G := S.grow hl' hret
    cases r with
    | none => cases hc; exact ⟨a, rfl, G⟩
    | some x =>
      obtain ⟨c1, c2⟩ := hassign hc
      exact ⟨_, c2, G.drop c1 v⟩
  | fresh k =>
    rw [hg] at hret hc
    obtain ⟨n, hv1, hn, hsame⟩ := hret
    cases r with
    | none =>
      have hc : (if leaks = true then some (some a) else none) = some t := hc
      cases leaks with
      | false => cases hc
      | true => cases hc; exact ⟨a, rfl, (S.lost hn k).grow hl' hsame⟩
    | some x =>
      obtain ⟨c1, c2⟩ := hassign hc
      subst hv1
      exact ⟨_, c2, (S.fresh c1 hn k none rfl).grow hl' hsame⟩
  | arg i =>
    rw [hg] at hret hc
    obtain ⟨hsame, hvi⟩ := hret
    have G := S.grow hl' hsame
    cases r with
    | none => cases hc; exact ⟨a, rfl, G⟩
    | some x =>
      have hc : (match args[i]? with
        | some (some y) => if x = y then some (some a) else (match AState.get a y with | .bor k j => assign leaks a x (.bor k j) | _ => assign leaks a x .top)
        | _ => assign leaks a x .top) = some t := hc
      cases ha : args[i]? with
      | none =>
        rw [ha] at hc
        obtain ⟨c1, c2⟩ := hassign hc
        exact ⟨_, c2, G.drop c1 v⟩
      | some z =>
        cases z with
        | none =>
          rw [ha] at hc
          obtain ⟨c1, c2⟩ := hassign hc
          exact ⟨_, c2, G.drop c1 v⟩
        | some y =>
          rw [ha] at hc
          have hvy : v = e y := by
            rw [hv, List.getElem?_map, ha] at hvi
            cases hvi
            rfl
          have hc : (if x = y then some (some a) else (match AState.get a y with | .bor k j => assign leaks a x (.bor k j) | _ => assign leaks a x .top)) = some t := hc
          by_cases hxy : x = y
          · rw [if_pos hxy] at hc
            cases hc
            refine ⟨a, rfl, ?_⟩
            have : e.setOpt (some x) v = e := by
              show e.set x v = e
              funext z
              by_cases c : z = x
              · rw [c, Env.set_same, hvy, hxy]
              · exact Env.set_ne _ c _
            rw [this]; exact G
          · rw [if_neg hxy] at hc
            cases hy : AState.get a y with
            | bor k j =>
              rw [hy] at hc
              obtain ⟨c1, c2⟩ := hassign hc
              refine ⟨_, c2, G.assign c1 rfl ?_ (by intro c; cases c) (by intro b c; cases c)⟩
              intro k' j' hkj
              cases hkj
              rw [hvy]
              exact S.bor y k j hy
            | own k p => rw [hy] at hc; obtain ⟨c1, c2⟩ := hassign hc; exact ⟨_, c2, G.drop c1 v⟩
            | nul => rw [hy] at hc; obtain ⟨c1, c2⟩ := hassign hc; exact ⟨_, c2, G.drop c1 v⟩
            | flg b => rw [hy] at hc; obtain ⟨c1, c2⟩ := hassign hc; exact ⟨_, c2, G.drop c1 v⟩
            | top => rw [hy] at hc; obtain ⟨c1, c2⟩ := hassign hc; exact ⟨_, c2, G.drop c1 v⟩

theorem assign_some {leaks : Bool} {a : AState} {x w t} (hh : assign leaks a x w = some t) : assignable leaks a x = true ∧ t = some (a.set x w) := by
  unfold assign at hh
  by_cases c : assignable leaks a x = true
  · rw [if_pos c] at hh; cases hh; exact ⟨c, rfl⟩
  · rw [if_neg c] at hh; cases hh

section
variable {T : F → Fn F} {sigs : F → List Sig} (hT : ∀ f, ∀ s ∈ sigs f, checkFn T sigs f s = true)
include hT

/-- an accepted routine, given that its body behaves -/
theorem call_ok {f : F} {args : List (Option Nat)} {e : Env} {h : Heap} {leaks : Bool} {B : Heap} {vals : List Val} {a : AState} {r : Option Nat} {t : Option AState}
    (hB : Closed B) (S : Sat leaks B h vals e a)
    (hc : check (fun g => (T g).params) sigs leaks (.call r f args) a = some t) {o : Out}
    (ih : ∀ (leaks : Bool) (B : Heap) (vals : List Val) (a : AState) (t : Option AState), Closed B → Sat leaks B h vals (bindArgs (args.map (evalArg e))) a →
      check (fun g => (T g).params) sigs leaks (T f).body a = some t → OutOk leaks B vals t o) :
    match o with
    | .fault => False
    | .dead => True
    | .ok e1 h1 => ∃ b, t = some b ∧ Sat leaks B h1 vals (e.setOpt r ((T f).resultOf e1)) b := by
  have hc : (match (sigs f).find? (fun s => argsMatch (T f).params s.nulls (args.map (argKnown a))) with
      | some s => afterCall leaks a r args s | none => none) = some t := hc
  cases hfind : (sigs f).find? (fun s => argsMatch (T f).params s.nulls (args.map (argKnown a))) with
  | none => rw [hfind] at hc; cases hc
  | some s =>
    rw [hfind] at hc
    have hmem := List.mem_of_find?_eq_some hfind
    have hmatch : argsMatch (T f).params s.nulls (args.map (argKnown a)) = true := by
      have := List.find?_some hfind
      exact this
    have hargs := argsMatch_ok S _ _ _ hmatch
    have hfn := hT f s hmem
    unfold checkFn at hfn
    rw [Bool.and_eq_true] at hfn
    have hfn2 := hfn.2
    cases hck : check (fun g => (T g).params) sigs s.leaks (T f).body (initA 0 (T f).params s.nulls ++ List.replicate nLocals .top) with
    | none => rw [hck] at hfn2; cases hfn2
    | some t' =>
      have hout := ih s.leaks h (args.map (evalArg e)) _ t' (S.closed hB) (init_sat s.leaks hargs) hck
      cases o with
      | fault => exact hout
      | dead => trivial
      | ok e1 h1 =>
        obtain ⟨b, hb, S'⟩ := hout
        rw [hck, hb] at hfn2
        have hret := final_ok (f := T f) (s := s) S' hfn2
        exact afterCall_ok S rfl hret hc

/-- **soundness of the checker** -/
theorem sound {p : Stmt F} {e : Env} {h : Heap} {o : Out} (hx : Exec T p e h o) :
    ∀ (leaks : Bool) (B : Heap) (vals : List Val) (a : AState) (t : Option AState), Closed B → Sat leaks B h vals e a →
      check (fun g => (T g).params) sigs leaks p a = some t → OutOk leaks B vals t o := by
  induction hx with
  | skip => intro leaks B vals a t hB S hc; cases hc; exact ⟨a, rfl, S⟩
  | seqOk _ _ ih1 ih2 =>
    rename_i p q _ _ _ _ _ _ _
    intro leaks B vals a t hB S hc
    have hc : (match check (fun g => (T g).params) sigs leaks p a with | none => none | some none => some none | some (some b) => check (fun g => (T g).params) sigs leaks q b) = some t := hc
    cases h1 : check (fun g => (T g).params) sigs leaks p a with
    | none => rw [h1] at hc; cases hc
    | some t1 =>
      obtain ⟨b, hb, S'⟩ := ih1 leaks B vals a t1 hB S h1
      subst hb
      rw [h1] at hc
      exact ih2 leaks B vals b t hB S' hc
  | seqFault _ ih =>
    rename_i p q _ _ _
    intro leaks B vals a t hB S hc
    have hc : (match check (fun g => (T g).params) sigs leaks p a with | none => none | some none => some none | some (some b) => check (fun g => (T g).params) sigs leaks q b) = some t := hc
    cases h1 : check (fun g => (T g).params) sigs leaks p a with
    | none => rw [h1] at hc; cases hc
    | some t1 => exact (ih leaks B vals a t1 hB S h1).elim
  | seqDead _ _ => intros; trivial
  | new hn =>
    intro leaks B vals a t hB S hc
    obtain ⟨c1, c2⟩ := assign_some hc
    exact ⟨_, c2, S.fresh c1 hn _ none rfl⟩
  | win h1 h2 h3 =>
    rename_i x y k e h m n
    intro leaks B vals a t hB S hc
    have hc : (if ((AState.get a y).isObj && decide (x ≠ y) && assignable leaks a x) = true then some (some (a.set x (.own k (some y)))) else none) = some t := hc
    by_cases c : ((AState.get a y).isObj && decide (x ≠ y) && assignable leaks a x) = true
    · rw [if_pos c] at hc
      cases hc
      rw [Bool.and_eq_true, Bool.and_eq_true] at c
      refine ⟨_, rfl, S.fresh c.2 h3 k (some y) ⟨(of_decide_eq_true c.1.2).symm, c.1.1, m, h1, rfl⟩⟩
    · rw [if_neg c] at hc; cases hc
  | winFault hf =>
    rename_i x y k e h
    intro leaks B vals a t hB S hc
    have hc : (if ((AState.get a y).isObj && decide (x ≠ y) && assignable leaks a x) = true then some (some (a.set x (.own k (some y)))) else none) = some t := hc
    by_cases c : ((AState.get a y).isObj && decide (x ≠ y) && assignable leaks a x) = true
    · rw [Bool.and_eq_true, Bool.and_eq_true] at c
      obtain ⟨n, o, e1, e2⟩ := S.obj_live c.1.1
      exact hf ⟨n, e1, by rw [e2]; intro c; cases c⟩
    · rw [if_neg c] at hc; cases hc
  | del hn hfr =>
    rename_i x k e h n
    intro leaks B vals a t hB S hc
    cases hx : AState.get a x with
    | own k' p =>
      simp only [check, hx] at hc
      split at hc
      · rename_i c
        cases hc
        exact ⟨_, rfl, S.del hx c.2 hn⟩
      · cases hc
    | nul => rw [S.nul x hx] at hn; cases hn
    | bor k' i => simp only [check, hx] at hc; cases hc
    | flg b => simp only [check, hx] at hc; cases hc
    | top => simp only [check, hx] at hc; cases hc
  | delNull hn =>
    rename_i x e h
    intro leaks B vals a t hB S hc
    cases hx : AState.get a x with
    | own k' p =>
      obtain ⟨n, e1, _⟩ := S.own_live hx
      rw [hn] at e1; cases e1
    | nul =>
      simp only [check, hx] at hc
      cases hc
      exact ⟨a, rfl, S⟩
    | bor k' i => simp only [check, hx] at hc; cases hc
    | flg b => simp only [check, hx] at hc; cases hc
    | top => simp only [check, hx] at hc; cases hc
  | delFault hfr hnull =>
    rename_i x k e h
    intro leaks B vals a t hB S hc
    cases hx : AState.get a x with
    | own k' p =>
      simp only [check, hx] at hc
      split at hc
      · rename_i c
        obtain ⟨n, e1, e2, q, e3⟩ := S.own_live hx
        exact hfr ⟨⟨n, q, e1, by rw [e3, c.1]⟩, S.noWindow hB hx c.2⟩
      · cases hc
    | nul =>
      simp only [check, hx] at hc
      split at hc
      · rename_i c; exact hnull ⟨S.nul x hx, c⟩
      · cases hc
    | bor k' i => simp only [check, hx] at hc; cases hc
    | flg b => simp only [check, hx] at hc; cases hc
    | top => simp only [check, hx] at hc; cases hc
  | use hl =>
    rename_i x k e h
    intro leaks B vals a t hB S hc
    have : t = some a := by
      cases hx : AState.get a x <;> simp only [check, hx] at hc
      · split at hc
        · cases hc; rfl
        · cases hc
      · split at hc
        · cases hc; rfl
        · cases hc
      all_goals cases hc
    exact ⟨a, this, S⟩
  | useFault hl =>
    rename_i x k e h
    intro leaks B vals a t hB S hc
    cases hx : AState.get a x with
    | own k' p =>
      simp only [check, hx] at hc
      split at hc
      · rename_i c
        obtain ⟨n, e1, e2, q, e3⟩ := S.own_live hx
        exact hl ⟨n, q, e1, by rw [e3, c]⟩
      · cases hc
    | bor k' i =>
      simp only [check, hx] at hc
      split at hc
      · rename_i c
        obtain ⟨_, n, q, e1, e2⟩ := S.bor x k' i hx
        exact hl ⟨n, q, e1, by rw [S.base n _ e2, c]⟩
      · cases hc
    | nul => simp only [check, hx] at hc; cases hc
    | flg b => simp only [check, hx] at hc; cases hc
    | top => simp only [check, hx] at hc; cases hc
  | null =>
    intro leaks B vals a t hB S hc
    obtain ⟨c1, c2⟩ := assign_some hc
    exact ⟨_, c2, S.assign c1 rfl (by intro k i c; cases c) (fun _ => rfl) (by intro b c; cases c)⟩
  | flag =>
    intro leaks B vals a t hB S hc
    obtain ⟨c1, c2⟩ := assign_some hc
    exact ⟨_, c2, S.assign c1 rfl (by intro k i c; cases c) (by intro c; cases c) (by intro b c; cases c; rfl)⟩
  | move =>
    rename_i x y e h
    intro leaks B vals a t hB S hc
    by_cases hxy : x = y
    · simp only [check, hxy, if_true] at hc; cases hc
    · cases hy : AState.get a y with
      | own k p =>
        simp only [check, hxy, if_false, hy] at hc
        split at hc
        · rename_i c
          cases hc
          rw [Bool.and_eq_true] at c
          exact ⟨_, rfl, S.move hxy hy c.1 c.2⟩
        · cases hc
      | bor k i =>
        simp only [check, hxy, if_false, hy] at hc
        obtain ⟨c1, c2⟩ := assign_some hc
        exact ⟨_, c2, S.assign c1 rfl (by intro k' i' c; cases c; exact S.bor y k i hy) (by intro c; cases c) (by intro b c; cases c)⟩
      | nul =>
        simp only [check, hxy, if_false, hy] at hc
        obtain ⟨c1, c2⟩ := assign_some hc
        exact ⟨_, c2, S.assign c1 rfl (by intro k' i' c; cases c) (fun _ => S.nul y hy) (by intro b c; cases c)⟩
      | flg b =>
        simp only [check, hxy, if_false, hy] at hc
        obtain ⟨c1, c2⟩ := assign_some hc
        exact ⟨_, c2, S.assign c1 rfl (by intro k' i' c; cases c) (by intro c; cases c) (by intro b' c; cases c; exact S.flg y b hy)⟩
      | top =>
        simp only [check, hxy, if_false, hy] at hc
        obtain ⟨c1, c2⟩ := assign_some hc
        exact ⟨_, c2, S.drop c1 _⟩
  | absorb hax hne hn hab =>
    rename_i x y e h n
    intro leaks B vals a t hB S hc
    cases hy : AState.get a y with
    | own k p =>
      cases p with
      | none =>
        simp only [check, hy] at hc
        split at hc
        · rename_i c
          cases hc
          rw [Bool.and_eq_true, Bool.and_eq_true] at c
          exact ⟨_, rfl, S.del hy c.2 hn⟩
        · cases hc
      | some z => simp only [check, hy] at hc; cases hc
    | nul => simp only [check, hy] at hc; cases hc
    | bor k' i => simp only [check, hy] at hc; cases hc
    | flg b => simp only [check, hy] at hc; cases hc
    | top => simp only [check, hy] at hc; cases hc
  | absorbFault hf =>
    rename_i x y e h
    intro leaks B vals a t hB S hc
    cases hy : AState.get a y with
    | own k p =>
      cases p with
      | none =>
        simp only [check, hy] at hc
        split at hc
        · rename_i c
          rw [Bool.and_eq_true, Bool.and_eq_true] at c
          obtain ⟨n, e1, e2, e3⟩ := S.own y k none hy
          obtain ⟨m, o, e4, e5⟩ := S.obj_live c.1.1
          refine hf ⟨⟨m, e4, by rw [e5]; intro c; cases c⟩, ?_, n, k, e1, e3, S.noWindow hB hy c.2⟩
          intro heq
          cases hxx : AState.get a x with
          | own k2 p2 => exact (of_decide_eq_true c.1.2) (S.inj x y _ _ _ _ hxx hy heq)
          | bor k2 i2 =>
            obtain ⟨_, n2, q2, e6, e7⟩ := S.bor x k2 i2 hxx
            rw [heq, e1] at e6
            cases e6
            rw [e2] at e7
            cases e7
          | nul => rw [hxx] at c; cases c.1.1
          | flg b => rw [hxx] at c; cases c.1.1
          | top => rw [hxx] at c; cases c.1.1
        · cases hc
      | some z => simp only [check, hy] at hc; cases hc
    | nul => simp only [check, hy] at hc; cases hc
    | bor k' i => simp only [check, hy] at hc; cases hc
    | flg b => simp only [check, hy] at hc; cases hc
    | top => simp only [check, hy] at hc; cases hc
  | left _ ih =>
    rename_i p q e h o _
    intro leaks B vals a t hB S hc
    have hc : (match check (fun g => (T g).params) sigs leaks p a, check (fun g => (T g).params) sigs leaks q a with
      | some r, some s => joinR r s | _, _ => none) = some t := hc
    cases h1 : check (fun g => (T g).params) sigs leaks p a with
    | none => rw [h1] at hc; cases hc
    | some t1 =>
      cases h2 : check (fun g => (T g).params) sigs leaks q a with
      | none => rw [h1, h2] at hc; cases hc
      | some t2 =>
        rw [h1, h2] at hc
        have := ih leaks B vals a t1 hB S h1
        cases t1 with
        | none =>
          cases o with
          | fault => exact this
          | dead => trivial
          | ok e1 h1' => obtain ⟨_, c, _⟩ := this; cases c
        | some b1 =>
          obtain ⟨b, hb, hle⟩ := joinR_left hc rfl
          rw [hb]
          refine OutOk.weaken ?_ this
          rcases hle with c | c
          · exact Or.inl c.symm
          · exact Or.inr c
  | right _ ih =>
    rename_i p q e h o _
    intro leaks B vals a t hB S hc
    have hc : (match check (fun g => (T g).params) sigs leaks p a, check (fun g => (T g).params) sigs leaks q a with
      | some r, some s => joinR r s | _, _ => none) = some t := hc
    cases h1 : check (fun g => (T g).params) sigs leaks p a with
    | none => rw [h1] at hc; cases hc
    | some t1 =>
      cases h2 : check (fun g => (T g).params) sigs leaks q a with
      | none => rw [h1, h2] at hc; cases hc
      | some t2 =>
        rw [h1, h2] at hc
        have := ih leaks B vals a t2 hB S h2
        cases t2 with
        | none =>
          cases o with
          | fault => exact this
          | dead => trivial
          | ok e1 h1' => obtain ⟨_, c, _⟩ := this; cases c
        | some b1 =>
          obtain ⟨b, hb, hle⟩ := joinR_right hc rfl
          rw [hb]
          refine OutOk.weaken ?_ this
          rcases hle with c | c
          · exact Or.inl c.symm
          · exact Or.inr c
  | isNull hn _ ih =>
    rename_i x p q e h o _
    intro leaks B vals a t hB S hc
    cases hx : AState.get a x with
    | nul => simp only [check, hx] at hc; exact ih leaks B vals a t hB S hc
    | own k' p => obtain ⟨n, e1, _⟩ := S.own_live hx; rw [hn] at e1; cases e1
    | bor k' i => obtain ⟨_, n, q, e1, _⟩ := S.bor x k' i hx; rw [hn] at e1; cases e1
    | flg b => simp only [check, hx] at hc; cases hc
    | top => simp only [check, hx] at hc; cases hc
  | notNull hn _ ih =>
    rename_i x p q e h o n _
    intro leaks B vals a t hB S hc
    cases hx : AState.get a x with
    | nul => rw [S.nul x hx] at hn; cases hn
    | own k' p => simp only [check, hx] at hc; exact ih leaks B vals a t hB S hc
    | bor k' i => simp only [check, hx] at hc; exact ih leaks B vals a t hB S hc
    | flg b => simp only [check, hx] at hc; cases hc
    | top => simp only [check, hx] at hc; cases hc
  | nullFault h1 h2 =>
    rename_i x p q e h
    intro leaks B vals a t hB S hc
    cases hx : AState.get a x with
    | nul => exact h1 (S.nul x hx)
    | own k' p => obtain ⟨n, e1, _⟩ := S.own_live hx; exact h2 n e1
    | bor k' i => obtain ⟨_, n, q, e1, _⟩ := S.bor x k' i hx; exact h2 n e1
    | flg b => simp only [check, hx] at hc; cases hc
    | top => simp only [check, hx] at hc; cases hc
  | isSet hn _ ih =>
    rename_i x p q e h o _
    intro leaks B vals a t hB S hc
    cases hx : AState.get a x with
    | flg b =>
      have := S.flg x b hx
      rw [hn] at this
      cases this
      simp only [check, hx] at hc; exact ih leaks B vals a t hB S hc
    | nul => simp only [check, hx] at hc; cases hc
    | own k' p => simp only [check, hx] at hc; cases hc
    | bor k' i => simp only [check, hx] at hc; cases hc
    | top => simp only [check, hx] at hc; cases hc
  | notSet hn _ ih =>
    rename_i x p q e h o _
    intro leaks B vals a t hB S hc
    cases hx : AState.get a x with
    | flg b =>
      have := S.flg x b hx
      rw [hn] at this
      cases this
      simp only [check, hx] at hc; exact ih leaks B vals a t hB S hc
    | nul => simp only [check, hx] at hc; cases hc
    | own k' p => simp only [check, hx] at hc; cases hc
    | bor k' i => simp only [check, hx] at hc; cases hc
    | top => simp only [check, hx] at hc; cases hc
  | flagFault hn =>
    rename_i x p q e h
    intro leaks B vals a t hB S hc
    cases hx : AState.get a x with
    | flg b => exact hn b (S.flg x b hx)
    | nul => simp only [check, hx] at hc; cases hc
    | own k' p => simp only [check, hx] at hc; cases hc
    | bor k' i => simp only [check, hx] at hc; cases hc
    | top => simp only [check, hx] at hc; cases hc
  | loopDone =>
    rename_i p e h
    intro leaks B vals a t hB S hc
    obtain ⟨b, hb, hle, _⟩ := loop_check hc
    rw [hb]
    exact OutOk.weaken hle ⟨a, rfl, S⟩
  | loopStep _ _ ih1 ih2 =>
    rename_i p e h e1 h1 o _ _
    intro leaks B vals a t hB S hc
    obtain ⟨b, hb, hle, t1, hb1, hb2⟩ := loop_check hc
    have Sb : Sat leaks B h vals e b := by
      rcases hle with c | c
      · subst c; exact S
      · exact S.weaken c
    obtain ⟨c, hc1, S1⟩ := ih1 leaks B vals b t1 hB Sb hb1
    subst hc1
    have S2 : Sat leaks B h1 vals e1 b := S1.weaken hb2
    subst hb
    exact ih2 leaks B vals b (some b) hB S2 (loop_fix hb1 hb2)
  | loopFault _ ih =>
    rename_i p e h _
    intro leaks B vals a t hB S hc
    obtain ⟨b, hb, hle, t1, hb1, hb2⟩ := loop_check hc
    have Sb : Sat leaks B h vals e b := by
      rcases hle with c | c
      · subst c; exact S
      · exact S.weaken c
    exact (ih leaks B vals b t1 hB Sb hb1).elim
  | loopDead _ _ => intros; trivial
  | die => intros; trivial
  | call _ ih =>
    intro leaks B vals a t hB S hc
    exact call_ok hT hB S hc ih
  | callFault _ ih =>
    intro leaks B vals a t hB S hc
    exact call_ok hT hB S hc ih
  | callDead _ _ => intros; trivial
where
  loop_check {sigs : F → List Sig} {T : F → Fn F} {leaks : Bool} {p : Stmt F} {a : AState} {t : Option AState}
      (hc : check (fun g => (T g).params) sigs leaks (.loop p) a = some t) :
      ∃ b, t = some b ∧ (a = b ∨ le a b = true) ∧ ∃ r, check (fun g => (T g).params) sigs leaks p b = some r ∧ leR r b = true := by
    have hc : (match check (fun g => (T g).params) sigs leaks p a with
      | none => none
      | some r => if leR r a then some (some a) else
        match joinR r (some a) with
        | some (some b) => (match check (fun g => (T g).params) sigs leaks p b with
            | some r' => if le a b && leR r' b then some (some b) else none
            | none => none)
        | _ => none) = some t := hc
    cases h1 : check (fun g => (T g).params) sigs leaks p a with
    | none => rw [h1] at hc; cases hc
    | some r =>
      rw [h1] at hc
      by_cases h2 : leR r a = true
      · simp only [h2, if_true] at hc
        cases hc
        exact ⟨a, rfl, Or.inl rfl, r, h1, h2⟩
      · simp only [h2] at hc
        cases h3 : joinR r (some a) with
        | none => rw [h3] at hc; cases hc
        | some t1 =>
          cases t1 with
          | none => rw [h3] at hc; cases hc
          | some b =>
            rw [h3] at hc
            cases h4 : check (fun g => (T g).params) sigs leaks p b with
            | none => simp only [h4] at hc; cases hc
            | some r' =>
              simp only [h4] at hc
              by_cases h5 : (le a b && leR r' b) = true
              · simp only [h5, if_true] at hc
                cases hc
                rw [Bool.and_eq_true] at h5
                exact ⟨b, rfl, Or.inr h5.1, r', h4, h5.2⟩
              · simp only [h5] at hc; cases hc
  loop_fix {sigs : F → List Sig} {T : F → Fn F} {leaks : Bool} {p : Stmt F} {b : AState} {r : Option AState}
      (hb1 : check (fun g => (T g).params) sigs leaks p b = some r) (hb2 : leR r b = true) :
      check (fun g => (T g).params) sigs leaks (.loop p) b = some (some b) := by
    simp only [check, hb1, hb2, if_true]

/-- every routine of an accepted table is safe -/
theorem checkAll_safe (f : F) {s : Sig} (hs : s ∈ sigs f) : Safe T f s := by
  intro h vals hcl hargs
  have hfn := hT f s hs
  unfold checkFn at hfn
  rw [Bool.and_eq_true] at hfn
  have hfn2 := hfn.2
  cases hck : check (fun g => (T g).params) sigs s.leaks (T f).body (initA 0 (T f).params s.nulls ++ List.replicate nLocals .top) with
  | none => rw [hck] at hfn2; cases hfn2
  | some t =>
    refine ⟨fun hx => (sound hT hx s.leaks h vals _ t hcl (init_sat s.leaks hargs) hck).elim, ?_⟩
    intro e' h' hx
    obtain ⟨b, hb, S⟩ := sound hT hx s.leaks h vals _ t hcl (init_sat s.leaks hargs) hck
    rw [hck, hb] at hfn2
    exact final_ok S hfn2

end

end M4rie.Res
