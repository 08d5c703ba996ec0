import Verif.Spec.Blocks
import Mathlib.Tactic.Ring
/-! # Reasoning about blocks -/
namespace M4rie.Mem

/-- postcondition; `d`: the allocator may fail -/
def Post {α : Type} (d : Bool) (x : M α) (m : Mem) (Q : α → Mem → Prop) : Prop := match x m with
  | .ok a m' => Q a m'
  | .dead => d = true
  | .fault => False

theorem post_pure {α : Type} {d : Bool} {a : α} {m : Mem} {Q : α → Mem → Prop} (h : Q a m) : Post d (pure a) m Q := h

theorem post_bind {α β : Type} {d : Bool} {x : M α} {f : α → M β} {m : Mem} {Q : β → Mem → Prop}
    (h : Post d x m fun a m' => Post d (f a) m' Q) : Post d (x >>= f) m Q := by
  show match (match x m with | .ok a m' => f a m' | .dead => .dead | .fault => .fault) with
    | .ok a m' => Q a m' | .dead => d = true | .fault => False
  unfold Post at h
  cases hx : x m with
  | ok a m' => rw [hx] at h; exact h
  | dead => rw [hx] at h; exact h
  | fault => rw [hx] at h; exact h

theorem post_mono {α : Type} {d : Bool} {x : M α} {m : Mem} {Q Q' : α → Mem → Prop} (h : Post d x m Q) (hQ : ∀ a m', Q a m' → Q' a m') :
    Post d x m Q' := by
  unfold Post at *
  cases hx : x m with
  | ok a m' => rw [hx] at h; exact hQ _ _ h
  | dead => rw [hx] at h; exact h
  | fault => rw [hx] at h; exact h

theorem post_dead {α : Type} {d : Bool} {x : M α} {m : Mem} {Q : α → Mem → Prop} (h : Post false x m Q) : Post d x m Q := by
  unfold Post at *
  cases hx : x m with
  | ok a m' => rw [hx] at h; exact h
  | dead => rw [hx] at h; cases h
  | fault => rw [hx] at h; exact h

/-- a new block -/
structure New (m : Mem) (a : Nat) (b : List Cell) (m' : Mem) : Prop where
  free : m a = none
  ne0 : a ≠ 0
  self : m' a = some b
  other : ∀ x, x ≠ a → m' x = m x

/-- a changed block -/
structure Upd (m : Mem) (a : Nat) (b : List Cell) (m' : Mem) : Prop where
  live : m a ≠ none
  self : m' a = some b
  other : ∀ x, x ≠ a → m' x = m x

/-- a released block -/
structure Del (m : Mem) (a : Nat) (m' : Mem) : Prop where
  live : m a ≠ none
  self : m' a = none
  other : ∀ x, x ≠ a → m' x = m x

theorem put_self (m : Mem) (a : Nat) (b : Option (List Cell)) : m.put a b a = b := if_pos rfl
theorem put_ne (m : Mem) {a x : Nat} (b : Option (List Cell)) (h : x ≠ a) : m.put a b x = m x := if_neg h

theorem New.ne {m a b m' x} (h : New m a b m') (hx : m x ≠ none) : x ≠ a := by intro c; rw [c] at hx; exact hx h.free
theorem New.keep {m a b m' x L} (h : New m a b m') (hx : m x = some L) : m' x = some L := by
  rw [h.other x (h.ne (by rw [hx]; intro c; cases c)), hx]

theorem post_malloc {A : Alloc} {n : Nat} {m : Mem} {Q : Nat → Mem → Prop}
    (h : ∀ a m', New m a (List.replicate n .junk) m' → Q a m') : Post true (malloc A n) m Q := by
  unfold Post malloc
  cases hp : A.pick m n with
  | none => rfl
  | some a => exact h a _ ⟨(A.fresh _ _ _ hp).1, (A.fresh _ _ _ hp).2, put_self _ _ _, fun x hx => put_ne _ _ hx⟩

theorem post_calloc {A : Alloc} {n : Nat} {m : Mem} {Q : Nat → Mem → Prop}
    (h : ∀ a m', New m a (List.replicate n (.val 0)) m' → Q a m') : Post true (calloc A n) m Q := by
  unfold Post calloc
  cases hp : A.pick m n with
  | none => rfl
  | some a => exact h a _ ⟨(A.fresh _ _ _ hp).1, (A.fresh _ _ _ hp).2, put_self _ _ _, fun x hx => put_ne _ _ hx⟩

theorem post_load {d : Bool} {a i v : Nat} {m : Mem} {Q : Nat → Mem → Prop} (h : Has m a i v) (hQ : Q v m) : Post d (load a i) m Q := by
  obtain ⟨b, h1, h2⟩ := h
  unfold Post load
  rw [h1]
  simp only [h2]
  exact hQ

theorem post_store {d : Bool} {a i v : Nat} {b : List Cell} {m : Mem} {Q : Unit → Mem → Prop} (h : m a = some b) (hi : i < b.length)
    (hQ : ∀ m', Upd m a (b.set i (.val v)) m' → Q () m') : Post d (store a i v) m Q := by
  unfold Post store
  simp only [h, if_pos hi]
  exact hQ _ ⟨(by rw [h]; intro c; cases c), put_self _ _ _, fun x hx => put_ne _ _ hx⟩

theorem post_free {d : Bool} {a : Nat} {m : Mem} {Q : Unit → Mem → Prop} (h0 : a ≠ 0) (h : m a ≠ none)
    (hQ : ∀ m', Del m a m' → Q () m') : Post d (free a) m Q := by
  unfold Post free
  have : (m a).isSome = true := by cases hm : m a with | none => exact absurd hm h | some x => rfl
  simp only [if_neg h0, this, if_true]
  exact hQ _ ⟨h, put_self _ _ _, fun x hx => put_ne _ _ hx⟩

theorem post_loop {d : Bool} {f : Nat → M Unit} {Q : Unit → Mem → Prop} (I : Nat → Mem → Prop) :
    ∀ (n : Nat) {m : Mem}, I 0 m → (∀ i, i < n → ∀ m', I i m' → Post d (f i) m' fun _ => I (i + 1)) → (∀ m', I n m' → Q () m') →
      Post d (loop n f) m Q := by
  intro n
  induction n generalizing Q with
  | zero => intro m h0 _ hQ; exact hQ _ h0
  | succ n ih =>
    intro m h0 hs hQ
    refine post_bind ?_
    refine ih (Q := fun _ m' => Post d (f n) m' Q) h0 (fun i hi => hs i (by omega)) ?_
    intro m' hm
    exact post_mono (hs n (by omega) m' hm) (fun _ => hQ)

/-! ## cells -/

theorem Has.size_lt {m a i v n} (h : Has m a i v) (hs : Size m a n) : i < n := by
  obtain ⟨b, h1, h2⟩ := h
  obtain ⟨b', h3, h4⟩ := hs
  rw [h1] at h3; cases h3
  rw [← h4]
  rcases Nat.lt_or_ge i b.length with c | c
  · exact c
  · rw [List.getElem?_eq_none c] at h2; cases h2

theorem Has.live {m a i v} (h : Has m a i v) : m a ≠ none := by
  obtain ⟨b, h1, _⟩ := h; rw [h1]; intro c; cases c

theorem Size.live {m a n} (h : Size m a n) : m a ≠ none := by
  obtain ⟨b, h1, _⟩ := h; rw [h1]; intro c; cases c

theorem Has.congr {m m' a i v} (h : Has m a i v) (e : m' a = m a) : Has m' a i v := by
  obtain ⟨b, h1, h2⟩ := h; exact ⟨b, by rw [e, h1], h2⟩

theorem Size.congr {m m' a n} (h : Size m a n) (e : m' a = m a) : Size m' a n := by
  obtain ⟨b, h1, h2⟩ := h; exact ⟨b, by rw [e, h1], h2⟩

theorem New.has {m a b m' x i v} (h : New m a b m') (hx : Has m x i v) : Has m' x i v := hx.congr (h.other x (h.ne hx.live))
theorem New.size {m a b m' x n} (h : New m a b m') (hx : Size m x n) : Size m' x n := hx.congr (h.other x (h.ne hx.live))

theorem Has.val_eq {m a i v w} (h : Has m a i v) (h' : Has m a i w) : v = w := by
  obtain ⟨b, h1, h2⟩ := h; obtain ⟨b', h3, h4⟩ := h'
  rw [h1] at h3; cases h3; rw [h2] at h4; cases h4; rfl

/-- after writing cell `i` of the block at `a` -/
structure Wrote (m : Mem) (a i v : Nat) (m' : Mem) : Prop where
  live : m a ≠ none
  here : Has m' a i v
  size : ∀ x n, Size m x n → Size m' x n
  keep : ∀ x j w, Has m x j w → (x ≠ a ∨ j ≠ i) → Has m' x j w
  other : ∀ x, x ≠ a → m' x = m x
  still : m' a ≠ none

theorem post_write {d : Bool} {a i v n : Nat} {m : Mem} {Q : Unit → Mem → Prop} (h : Size m a n) (hi : i < n)
    (hQ : ∀ m', Wrote m a i v m' → Q () m') : Post d (store a i v) m Q := by
  obtain ⟨b, h1, h2⟩ := h
  refine post_store h1 (by omega) ?_
  intro m' u
  refine hQ m' ⟨u.live, ⟨_, u.self, by rw [List.getElem?_set_self (by omega)]⟩, ?_, ?_, u.other, by rw [u.self]; intro c; cases c⟩
  · intro x k hx
    by_cases e : x = a
    · subst e
      obtain ⟨b', h3, h4⟩ := hx
      rw [h1] at h3; cases h3
      exact ⟨_, u.self, by rw [List.length_set]; exact h4⟩
    · exact hx.congr (u.other x e)
  · intro x j w hx hne
    by_cases e : x = a
    · subst e
      obtain ⟨b', h3, h4⟩ := hx
      rw [h1] at h3; cases h3
      refine ⟨_, u.self, ?_⟩
      rw [List.getElem?_set_ne (by cases hne with | inl c => exact absurd rfl c | inr c => omega)]
      exact h4
    · exact hx.congr (u.other x e)

/-! ## new blocks, collected -/

/-- the blocks `l` are new since `m0` -/
structure Ext (m0 : Mem) (l : List Nat) (m : Mem) : Prop where
  nodup : l.Nodup
  ne0 : ∀ b ∈ l, b ≠ 0
  old : ∀ b ∈ l, m0 b = none
  live : ∀ b ∈ l, m b ≠ none
  other : ∀ b, b ∉ l → m b = m0 b

theorem Ext.nil (m : Mem) : Ext m [] m := ⟨List.nodup_nil, fun _ h => (by cases h), fun _ h => (by cases h), fun _ h => (by cases h), fun _ _ => rfl⟩

theorem Ext.new {m0 l m a b m'} (h : Ext m0 l m) (n : New m a b m') : Ext m0 (a :: l) m' := by
  have ha : a ∉ l := fun c => h.live a c n.free
  refine ⟨List.nodup_cons.2 ⟨ha, h.nodup⟩, ?_, ?_, ?_, ?_⟩
  · intro x hx
    rcases List.mem_cons.1 hx with c | c
    · rw [c]; exact n.ne0
    · exact h.ne0 x c
  · intro x hx
    rcases List.mem_cons.1 hx with c | c
    · rw [c, ← h.other a ha]; exact n.free
    · exact h.old x c
  · intro x hx
    by_cases c : x = a
    · rw [c, n.self]; intro c; cases c
    · rw [n.other x c]
      rcases List.mem_cons.1 hx with c' | c'
      · exact absurd c' c
      · exact h.live x c'
  · intro x hx
    rw [List.mem_cons, not_or] at hx
    rw [n.other x hx.1]; exact h.other x hx.2

theorem Ext.wrote {m0 l m a i v m'} (h : Ext m0 l m) (w : Wrote m a i v m') (ha : a ∈ l) : Ext m0 l m' := by
  refine ⟨h.nodup, h.ne0, h.old, ?_, ?_⟩
  · intro x hx
    by_cases c : x = a
    · rw [c]; exact w.still
    · rw [w.other x c]; exact h.live x hx
  · intro x hx
    rw [w.other x (fun c => hx (by rw [c]; exact ha))]
    exact h.other x hx

theorem Ext.perm {m0 l l' m} (h : Ext m0 l m) (p : l.Perm l') : Ext m0 l' m :=
  ⟨p.nodup_iff.1 h.nodup, fun b hb => h.ne0 b (p.mem_iff.2 hb), fun b hb => h.old b (p.mem_iff.2 hb), fun b hb => h.live b (p.mem_iff.2 hb),
   fun b hb => h.other b (fun c => hb (p.mem_iff.1 c))⟩

theorem Ext.trans {m0 l m l' m'} (h : Ext m0 l m) (h' : Ext m l' m') : Ext m0 (l' ++ l) m' := by
  have dis : ∀ x, x ∈ l' → x ∉ l := fun x hx hc => h.live x hc (h'.old x hx)
  refine ⟨List.nodup_append.2 ⟨h'.nodup, h.nodup, fun x hx y hy c => dis x hx (by rw [c]; exact hy)⟩, ?_, ?_, ?_, ?_⟩
  · intro x hx
    rcases List.mem_append.1 hx with c | c
    · exact h'.ne0 x c
    · exact h.ne0 x c
  · intro x hx
    rcases List.mem_append.1 hx with c | c
    · rw [← h.other x (dis x c)]; exact h'.old x c
    · exact h.old x c
  · intro x hx
    rcases List.mem_append.1 hx with c | c
    · exact h'.live x c
    · by_cases c' : x ∈ l'
      · exact h'.live x c'
      · rw [h'.other x c']; exact h.live x c
  · intro x hx
    rw [List.mem_append, not_or] at hx
    rw [h'.other x hx.1]; exact h.other x hx.2

theorem Ext.blocks {m0 l m} (h : Ext m0 l m) : Blocks m l := ⟨h.nodup, fun b hb => ⟨h.ne0 b hb, h.live b hb⟩⟩

theorem Ext.extends {m0 l m} (h : Ext m0 l m) : Extends m0 l m := ⟨h.old, h.other⟩

theorem Ext.has {m0 l m x i v} (h : Ext m0 l m) (hx : Has m0 x i v) : Has m x i v :=
  hx.congr (h.other x (fun c => hx.live (h.old x c)))

theorem Ext.size {m0 l m x n} (h : Ext m0 l m) (hx : Size m0 x n) : Size m x n :=
  hx.congr (h.other x (fun c => hx.live (h.old x c)))

theorem Extends.without {m l m'} (h : Extends m l m') : m'.without l = m := by
  funext x
  unfold Mem.without
  by_cases c : x ∈ l
  · rw [if_pos c, h.1 x c]
  · rw [if_neg c, h.2 x c]

/-- from a postcondition to the form used in the statements -/
theorem makes_of_post {x : M Nat} {m : Mem} {At : Mem → Nat → List Nat → Prop}
    (h : Post true x m fun a m' => a ≠ 0 ∧ ∃ l, At m' a l ∧ Extends m l m') : Makes x m At := by
  unfold Post at h
  unfold Makes
  cases hx : x m with
  | ok a m' => rw [hx] at h; exact ⟨fun c => (by cases c), fun a' m'' c => by cases c; exact h⟩
  | dead => exact ⟨fun c => (by cases c), fun a' m'' c => by cases c⟩
  | fault => rw [hx] at h; exact absurd h id

theorem post_of_makes {x : M Nat} {m : Mem} {At : Mem → Nat → List Nat → Prop} (h : Makes x m At) :
    Post true x m fun a m' => a ≠ 0 ∧ ∃ l, At m' a l ∧ Extends m l m' := by
  unfold Post
  cases hx : x m with
  | ok a m' => exact h.2 a m' hx
  | dead => rfl
  | fault => exact h.1 hx

theorem ok_of_post {x : M Unit} {m m1 : Mem} (h : Post false x m fun _ m' => m' = m1) : x m = .ok () m1 := by
  unfold Post at h
  cases hx : x m with
  | ok a m' => rw [hx] at h; rw [h]
  | dead => rw [hx] at h; cases h
  | fault => rw [hx] at h; exact absurd h id

/-! ## released blocks, collected -/

/-- the blocks `l` have been released since `m0` -/
structure Gone (m0 : Mem) (l : List Nat) (m : Mem) : Prop where
  gone : ∀ b ∈ l, m b = none
  other : ∀ b, b ∉ l → m b = m0 b

theorem Gone.nil (m : Mem) : Gone m [] m := ⟨fun _ h => (by cases h), fun _ _ => rfl⟩

theorem Gone.del {m0 l m a m'} (h : Gone m0 l m) (d : Del m a m') : Gone m0 (a :: l) m' := by
  refine ⟨?_, ?_⟩
  · intro x hx
    by_cases c : x = a
    · rw [c]; exact d.self
    · rw [d.other x c]
      rcases List.mem_cons.1 hx with c' | c'
      · exact absurd c' c
      · exact h.gone x c'
  · intro x hx
    rw [List.mem_cons, not_or] at hx
    rw [d.other x hx.1, h.other x hx.2]

theorem Gone.has {m0 l m x i v} (h : Gone m0 l m) (hx : Has m0 x i v) (hn : x ∉ l) : Has m x i v := hx.congr (h.other x hn)
theorem Gone.live {m0 l m x} (h : Gone m0 l m) (hx : m0 x ≠ none) (hn : x ∉ l) : m x ≠ none := by rw [h.other x hn]; exact hx

theorem Gone.without {m0 l m} (h : Gone m0 l m) : m = m0.without l := by
  funext x
  unfold Mem.without
  by_cases c : x ∈ l
  · rw [if_pos c, h.gone x c]
  · rw [if_neg c, h.other x c]

theorem without_perm (m : Mem) {l l' : List Nat} (p : l.Perm l') : m.without l = m.without l' := by
  funext x
  unfold Mem.without
  by_cases c : x ∈ l
  · rw [if_pos c, if_pos (p.mem_iff.1 c)]
  · rw [if_neg c, if_neg (fun c' => c (p.mem_iff.2 c'))]

theorem Gone.trans {m0 l m l' m'} (h : Gone m0 l m) (h' : Gone m l' m') : Gone m0 (l' ++ l) m' := by
  refine ⟨?_, ?_⟩
  · intro x hx
    by_cases c : x ∈ l'
    · exact h'.gone x c
    · rw [h'.other x c]
      rcases List.mem_append.1 hx with c' | c'
      · exact absurd c' c
      · exact h.gone x c'
  · intro x hx
    rw [List.mem_append, not_or] at hx
    rw [h'.other x hx.1, h.other x hx.2]

theorem Gone.perm {m0 l l' m} (h : Gone m0 l m) (p : l.Perm l') : Gone m0 l' m :=
  ⟨fun b hb => h.gone b (p.mem_iff.2 hb), fun b hb => h.other b (fun c => hb (p.mem_iff.1 c))⟩

theorem without_gone (m : Mem) (l : List Nat) : Gone m l (m.without l) := by
  refine ⟨?_, ?_⟩
  · intro x hx; unfold Mem.without; rw [if_pos hx]
  · intro x hx; unfold Mem.without; rw [if_neg hx]

theorem post_of_ok {d : Bool} {x : M Unit} {m m1 : Mem} {Q : Unit → Mem → Prop} (h : x m = .ok () m1) (hQ : Q () m1) : Post d x m Q := by
  unfold Post; rw [h]; exact hQ

end M4rie.Mem
