import Verif.Proofs.Blocks
import Verif.Model.Blocks
import Verif.Proofs.Gf2eInit
/-! # Constructors -/
namespace M4rie.Mem

variable {A : Alloc}

theorem post_mzdInit {m : Mem} {Q : Nat → Mem → Prop} (h : ∀ x m', New m x [.val 0] m' → Q x m') : Post true (mzdInit A) m Q :=
  post_calloc (n := 1) h

theorem post_mzdFree {d : Bool} {a : Nat} {m : Mem} {Q : Unit → Mem → Prop} (h : m a ≠ none)
    (hQ : ∀ m', Del m a m' → Q () m') : Post d (mzdFree a) m Q := by
  unfold Post mzdFree
  have : (m a).isSome = true := by cases hm : m a with | none => exact absurd hm h | some x => rfl
  simp only [this, if_true]
  exact hQ _ ⟨h, put_self _ _ _, fun x hx => put_ne _ _ hx⟩

theorem New.mySize {m a b m'} (h : New m a b m') : Size m' a b.length := ⟨b, h.self, rfl⟩

/-- the first pointers of an array: from cell `off` of the block at `p` on -/
def Filled (m : Mem) (p off k : Nat) (xs : List Nat) : Prop := ∀ i x, xs[i]? = some x → Has m p (off + i) x ∧ Size m x k

theorem Filled.nil {m p off k} : Filled m p off k [] := by intro i x h; cases h

theorem Filled.congr {m m' : Mem} {p off k xs} (h : Filled m p off k xs) (hp : m' p = m p) (hx : ∀ x ∈ xs, m' x = m x) : Filled m' p off k xs := by
  intro i x hi
  exact ⟨(h i x hi).1.congr hp, (h i x hi).2.congr (hx x (List.mem_of_getElem? hi))⟩

theorem Filled.new {m p off k xs a b m'} (h : Filled m p off k xs) (n : New m a b m') : Filled m' p off k xs := by
  intro i x hi
  exact ⟨n.has (h i x hi).1, n.size (h i x hi).2⟩

theorem Filled.wrote_other {m p off k xs a j v m'} (h : Filled m p off k xs) (w : Wrote m a j v m') (hne : p ≠ a ∨ j < off ∨ off + xs.length ≤ j) :
    Filled m' p off k xs := by
  intro i x hi
  have hl : i < xs.length := by
    rcases Nat.lt_or_ge i xs.length with c | c
    · exact c
    · rw [List.getElem?_eq_none c] at hi; cases hi
  refine ⟨w.keep _ _ _ (h i x hi).1 ?_, w.size _ _ (h i x hi).2⟩
  rcases hne with c | c | c
  · exact .inl c
  · exact .inr (by omega)
  · exact .inr (by omega)

/-- the next pointer -/
theorem Filled.push {m p off k xs x m'} (h : Filled m p off k xs) (w : Wrote m p (off + xs.length) x m') (hx : Size m x k) :
    Filled m' p off k (xs ++ [x]) := by
  intro i y hi
  rcases Nat.lt_or_ge i xs.length with c | c
  · rw [List.getElem?_append_left c] at hi
    exact h.wrote_other w (.inr (.inr (Nat.le_refl _))) i y hi
  · rw [List.getElem?_append_right c] at hi
    have : i = xs.length := by
      rcases Nat.lt_or_ge (i - xs.length) 1 with c' | c'
      · omega
      · rw [List.getElem?_eq_none (by simpa using c')] at hi; cases hi
    subst this
    rw [Nat.sub_self] at hi
    cases hi
    exact ⟨w.here, w.size _ _ hx⟩

theorem Filled.size_of {m p off k xs x} (h : Filled m p off k xs) (hx : x ∈ xs) : Size m x k := by
  obtain ⟨i, hi⟩ := List.getElem?_of_mem hx
  exact (h i x hi).2

theorem perm_snoc {a : Nat} {l : List Nat} (x : Nat) {r : List Nat} (h : l.Perm (a :: r)) : (x :: l).Perm (a :: (r ++ [x])) := by
  have h1 : (x :: l).Perm (x :: a :: r) := h.cons x
  have h2 : (x :: a :: r).Perm (a :: x :: r) := List.Perm.swap a x r
  have h3 : (a :: x :: r).Perm (a :: (r ++ [x])) := (List.perm_append_comm (l₁ := [x]) (l₂ := r)).cons a
  exact (h1.trans h2).trans h3

theorem mzedInit_post {ff r c e m} (hf : Has m ff 0 e) :
    Post true (mzedInit A ff r c) m fun a m' => a ≠ 0 ∧ ∃ l, MzedAt m' a ff l ∧ Ext m l m' := by
  unfold mzedInit
  refine post_bind (post_malloc fun a m1 n1 => ?_)
  have s1 : Size m1 a 5 := n1.mySize
  have e1 := (Ext.nil m).new n1
  refine post_bind (post_write s1 (by decide) fun m2 w2 => ?_)
  have e2 := e1.wrote w2 (List.mem_cons_self ..)
  refine post_bind (post_load w2.here ?_)
  refine post_bind (post_load (e2.has hf) ?_)
  refine post_bind (post_write (w2.size _ _ s1) (by decide) fun m3 w3 => ?_)
  have s3 := w3.size _ _ (w2.size _ _ s1)
  have e3 := e2.wrote w3 (List.mem_cons_self ..)
  refine post_bind (post_write s3 (by decide) fun m4 w4 => ?_)
  have s4 := w4.size _ _ s3
  have e4 := e3.wrote w4 (List.mem_cons_self ..)
  refine post_bind (post_write s4 (by decide) fun m5 w5 => ?_)
  have s5 := w5.size _ _ s4
  have e5 := e4.wrote w5 (List.mem_cons_self ..)
  refine post_bind (post_mzdInit fun x m6 n6 => ?_)
  have s6 := n6.size s5
  have e6 := e5.new n6
  refine post_bind (post_write s6 (by decide) fun m7 w7 => ?_)
  have e7 := e6.wrote w7 (List.mem_cons_of_mem _ (List.mem_cons_self ..))
  have k7 : Has m7 a 1 ff := w7.keep _ _ _ (n6.has (w5.keep _ _ _ (w4.keep _ _ _ (w3.keep _ _ _ w2.here (.inr (by decide))) (.inr (by decide)))
    (.inr (by decide)))) (.inr (by decide))
  exact post_pure ⟨n1.ne0, _, ⟨e7.blocks, w7.size _ _ s6, k7, x, w7.here, List.Perm.swap x a []⟩, e7⟩

theorem sliceInit_post {ff r c e m} (hf : Has m ff 0 e) (he : e ≤ 16) :
    Post true (sliceInit A ff r c) m fun a m' => a ≠ 0 ∧ ∃ l, SliceAt m' a ff e l ∧ Ext m l m' := by
  unfold sliceInit
  refine post_bind (post_malloc fun a m1 n1 => ?_)
  have s1 : Size m1 a 20 := n1.mySize
  have e1 := (Ext.nil m).new n1
  refine post_bind (post_write s1 (by decide) fun m2 w2 => ?_)
  have s2 := w2.size _ _ s1
  have e2 := e1.wrote w2 (List.mem_cons_self ..)
  refine post_bind (post_write s2 (by decide) fun m3 w3 => ?_)
  have s3 := w3.size _ _ s2
  have e3 := e2.wrote w3 (List.mem_cons_self ..)
  refine post_bind (post_write s3 (by decide) fun m4 w4 => ?_)
  have s4 := w4.size _ _ s3
  have e4 := e3.wrote w4 (List.mem_cons_self ..)
  refine post_bind (post_load (e4.has hf) ?_)
  refine post_bind (post_write s4 (by decide) fun m5 w5 => ?_)
  have s5 := w5.size _ _ s4
  have e5 := e4.wrote w5 (List.mem_cons_self ..)
  have k5 : Has m5 a 19 ff := w5.keep _ _ _ (w4.keep _ _ _ (w3.keep _ _ _ w2.here (.inr (by decide))) (.inr (by decide))) (.inr (by decide))
  refine post_bind (post_load w5.here ?_)
  refine post_bind (post_loop (fun i m' => ∃ xs l, xs.length = i ∧ Filled m' a 0 1 xs ∧ Ext m l m' ∧ l.Perm (a :: xs) ∧ Size m' a 20 ∧
    Has m' a 18 e ∧ Has m' a 19 ff) e ⟨[], [a], rfl, Filled.nil, e5, List.Perm.refl _, s5, w5.here, k5⟩ ?_ ?_)
  · rintro i hi m' ⟨xs, l, hl, hF, hE, hp, hs, hd, hk⟩
    refine post_bind (post_mzdInit fun x m6 n6 => ?_)
    refine post_write (n6.size hs) (by omega) fun m7 w7 => ?_
    have e7 := (hE.new n6).wrote w7 (List.mem_cons_of_mem _ (hp.mem_iff.2 (List.mem_cons_self ..)))
    refine ⟨xs ++ [x], x :: l, by rw [List.length_append, hl]; rfl, ?_, e7, perm_snoc x hp, w7.size _ _ (n6.size hs),
      w7.keep _ _ _ (n6.has hd) (.inr (by omega)), w7.keep _ _ _ (n6.has hk) (.inr (by omega))⟩
    refine (hF.new n6).push ?_ n6.mySize
    rw [Nat.zero_add, hl]; exact w7
  · rintro m' ⟨xs, l, hl, hF, hE, hp, hs, hd, hk⟩
    refine post_pure ⟨n1.ne0, l, ⟨hE.blocks, hs, hd, hk, he, xs, hl, ?_, hp.symm⟩, hE⟩
    intro i x hx
    have := hF i x hx
    rw [Nat.zero_add] at this
    exact this

theorem post_mzdInitWindow {y : Nat} {m : Mem} {Q : Nat → Mem → Prop} (hy : m y ≠ none) (h : ∀ x m', New m x [.val 0] m' → Q x m') :
    Post true (mzdInitWindow A y) m Q := by
  have : (m y).isSome = true := by cases hm : m y with | none => exact absurd hm hy | some x => rfl
  have e : mzdInitWindow A y m = calloc A 1 m := if_pos this
  unfold Post
  rw [e]
  exact post_calloc (n := 1) h

theorem mzedInitWindow_post {s r c k e l0 m} (h0 : MzedAt m s k l0) (hf : Has m k 0 e) :
    Post true (mzedInitWindow A s r c) m fun a m' => a ≠ 0 ∧ ∃ l, MzedAt m' a k l ∧ Ext m l m' := by
  obtain ⟨hb, hsz, hk0, y, hy0, hyp⟩ := h0
  have hyl : m y ≠ none := (hb.2 y (hyp.mem_iff.1 (by simp))).2
  unfold mzedInitWindow
  refine post_bind (post_malloc fun a m1 n1 => ?_)
  have s1 : Size m1 a 5 := n1.mySize
  have e1 := (Ext.nil m).new n1
  refine post_bind (post_load (n1.has hk0) ?_)
  refine post_bind (post_write s1 (by decide) fun m2 w2 => ?_)
  have e2 := e1.wrote w2 (List.mem_cons_self ..)
  refine post_bind (post_load (e2.has hk0) ?_)
  refine post_bind (post_load (e2.has hf) ?_)
  refine post_bind (post_write (w2.size _ _ s1) (by decide) fun m3 w3 => ?_)
  have s3 := w3.size _ _ (w2.size _ _ s1)
  have e3 := e2.wrote w3 (List.mem_cons_self ..)
  refine post_bind (post_write s3 (by decide) fun m4 w4 => ?_)
  have s4 := w4.size _ _ s3
  have e4 := e3.wrote w4 (List.mem_cons_self ..)
  refine post_bind (post_write s4 (by decide) fun m5 w5 => ?_)
  have s5 := w5.size _ _ s4
  have e5 := e4.wrote w5 (List.mem_cons_self ..)
  refine post_bind (post_load (e5.has hy0) ?_)
  refine post_bind (post_load (w5.keep _ _ _ (w4.keep _ _ _ w3.here (.inr (by decide))) (.inr (by decide))) ?_)
  refine post_bind (post_mzdInitWindow ?_ fun x m6 n6 => ?_)
  · rw [e5.other y (fun c => hyl (e5.old y c))]; exact hyl
  have s6 := n6.size s5
  have e6 := e5.new n6
  refine post_bind (post_write s6 (by decide) fun m7 w7 => ?_)
  have e7 := e6.wrote w7 (List.mem_cons_of_mem _ (List.mem_cons_self ..))
  have k7 : Has m7 a 1 k := w7.keep _ _ _ (n6.has (w5.keep _ _ _ (w4.keep _ _ _ (w3.keep _ _ _ w2.here (.inr (by decide))) (.inr (by decide)))
    (.inr (by decide)))) (.inr (by decide))
  exact post_pure ⟨n1.ne0, _, ⟨e7.blocks, w7.size _ _ s6, k7, x, w7.here, List.Perm.swap x a []⟩, e7⟩

theorem sliceInitWindow_post {s r c k d l0 m} (hs0 : SliceAt m s k d l0) :
    Post true (sliceInitWindow A s r c) m fun a m' => a ≠ 0 ∧ ∃ l, SliceAt m' a k d l ∧ Ext m l m' := by
  obtain ⟨hb, hsz, hd0, hk0, he, ys, hyl, hys, hyp⟩ := hs0
  unfold sliceInitWindow
  refine post_bind (post_malloc fun a m1 n1 => ?_)
  have s1 : Size m1 a 20 := n1.mySize
  have e1 := (Ext.nil m).new n1
  refine post_bind (post_load (n1.has hk0) ?_)
  refine post_bind (post_write s1 (by decide) fun m2 w2 => ?_)
  have s2 := w2.size _ _ s1
  have e2 := e1.wrote w2 (List.mem_cons_self ..)
  refine post_bind (post_load (e2.has hd0) ?_)
  refine post_bind (post_write s2 (by decide) fun m3 w3 => ?_)
  have s3 := w3.size _ _ s2
  have e3 := e2.wrote w3 (List.mem_cons_self ..)
  refine post_bind (post_write s3 (by decide) fun m4 w4 => ?_)
  have s4 := w4.size _ _ s3
  have e4 := e3.wrote w4 (List.mem_cons_self ..)
  refine post_bind (post_write s4 (by decide) fun m5 w5 => ?_)
  have s5 := w5.size _ _ s4
  have e5 := e4.wrote w5 (List.mem_cons_self ..)
  have k5 : Has m5 a 19 k := w5.keep _ _ _ (w4.keep _ _ _ (w3.keep _ _ _ w2.here (.inr (by decide))) (.inr (by decide))) (.inr (by decide))
  have d5 : Has m5 a 18 d := w5.keep _ _ _ (w4.keep _ _ _ w3.here (.inr (by decide))) (.inr (by decide))
  refine post_bind (post_loop (fun i m' => ∃ xs l, xs.length = i ∧ Filled m' a 0 1 xs ∧ Ext m l m' ∧ l.Perm (a :: xs) ∧ Size m' a 20 ∧
    Has m' a 18 d ∧ Has m' a 19 k) d ⟨[], [a], rfl, Filled.nil, e5, List.Perm.refl _, s5, d5, k5⟩ ?_ ?_)
  · rintro i hi m' ⟨xs, l, hl, hF, hE, hp, hs, hd, hk⟩
    have hy : ys[i]? = some (ys[i]'(by omega)) := List.getElem?_eq_getElem (by omega)
    refine post_bind (post_load (hE.has (hys i _ hy).1) ?_)
    refine post_bind (post_mzdInitWindow (hE.size (hys i _ hy).2).live fun x m6 n6 => ?_)
    refine post_write (n6.size hs) (by omega) fun m7 w7 => ?_
    have e7 := (hE.new n6).wrote w7 (List.mem_cons_of_mem _ (hp.mem_iff.2 (List.mem_cons_self ..)))
    refine ⟨xs ++ [x], x :: l, by rw [List.length_append, hl]; rfl, ?_, e7, perm_snoc x hp, w7.size _ _ (n6.size hs),
      w7.keep _ _ _ (n6.has hd) (.inr (by omega)), w7.keep _ _ _ (n6.has hk) (.inr (by omega))⟩
    refine (hF.new n6).push ?_ n6.mySize
    rw [Nat.zero_add, hl]; exact w7
  · rintro m' ⟨xs, l, hl, hF, hE, hp, hs, hd, hk⟩
    refine post_pure ⟨n1.ne0, l, ⟨hE.blocks, hs, hd, hk, he, xs, hl, ?_, hp.symm⟩, hE⟩
    intro i x hx
    have := hF i x hx
    rw [Nat.zero_add] at this
    exact this

/-! frame -/

theorem Blocks.congr {m m' l} (h : Blocks m l) (e : ∀ b ∈ l, m' b = m b) : Blocks m' l :=
  ⟨h.1, fun b hb => ⟨(h.2 b hb).1, by rw [e b hb]; exact (h.2 b hb).2⟩⟩

theorem MzedAt.congr {m m' a k l} (h : MzedAt m a k l) (e : ∀ b ∈ l, m' b = m b) : MzedAt m' a k l := by
  obtain ⟨hb, hs, hk, x, hx, hp⟩ := h
  have ea := e a (hp.mem_iff.1 (List.mem_cons_self ..))
  exact ⟨hb.congr e, hs.congr ea, hk.congr ea, x, hx.congr ea, hp⟩

theorem MzedAt.ext {m m' a k l l'} (h : MzedAt m a k l) (e : Ext m l' m') : MzedAt m' a k l :=
  h.congr fun b hb => e.other b fun c => (h.1.2 b hb).2 (e.old b c)

theorem MzedAt.wrote {m m' a k l x i v} (h : MzedAt m a k l) (w : Wrote m x i v m') (hx : x ∉ l) : MzedAt m' a k l :=
  h.congr fun b hb => w.other b fun c => hx (by rw [← c]; exact hb)

theorem njtInit_post {ff c e m} (hf : Has m ff 0 e) :
    Post true (njtInit A ff c) m fun a m' => a ≠ 0 ∧ ∃ l, (NjtAt m' a ff l ∧ ∃ t, Has m' a 0 t ∧ Size m' t (2 ^ e)) ∧ Ext m l m' := by
  unfold njtInit
  refine post_bind (post_malloc fun a m1 n1 => ?_)
  have s1 : Size m1 a 3 := n1.mySize
  have e1 := (Ext.nil m).new n1
  refine post_bind (post_load (n1.has hf) ?_)
  refine post_bind (post_calloc fun t m2 n2 => ?_)
  have s2 := n2.size s1
  have e2 := e1.new n2
  refine post_bind (post_write s2 (by decide) fun m3 w3 => ?_)
  have s3 := w3.size _ _ s2
  have e3 := e2.wrote w3 (by simp)
  refine post_bind (post_mono (mzedInit_post (e3.has hf)) ?_)
  rintro x m4 ⟨hx0, l1, hx, e4⟩
  have e4' := e3.trans e4
  have s4 := e4.size s3
  have na : ∀ {b : Nat} {l : List Nat} {mm mm' : Mem}, mm b ≠ none → Ext mm l mm' → b ∉ l := fun hb h c => hb (h.old _ c)
  have na1 : a ∉ l1 := na s3.live e4
  refine post_bind (post_write s4 (by decide) fun m5 w5 => ?_)
  have s5 := w5.size _ _ s4
  have e5 := e4'.wrote w5 (by simp)
  have hx5 := hx.wrote w5 na1
  have t5 : Has m5 a 0 t := w5.keep _ _ _ (e4.has w3.here) (.inr (by decide))
  refine post_bind (post_mono (mzedInit_post (e5.has hf)) ?_)
  rintro y m6 ⟨hy0, l2, hy, e6⟩
  have e6' := e5.trans e6
  have na2 : a ∉ l2 := na s5.live e6
  refine post_bind (post_write (e6.size s5) (by decide) fun m7 w7 => ?_)
  have e7 := e6'.wrote w7 (by simp)
  have P : (a :: t :: (l1 ++ l2)).Perm (l2 ++ (l1 ++ [t, a])) := by
    have h1 : (a :: t :: (l1 ++ l2)).Perm (t :: a :: (l1 ++ l2)) := List.Perm.swap _ _ _
    have h2 : (t :: a :: (l1 ++ l2)).Perm ((l1 ++ l2) ++ [t, a]) := List.perm_append_comm (l₁ := [t, a])
    have h3 : ((l1 ++ l2) ++ [t, a]).Perm ((l2 ++ l1) ++ [t, a]) := (List.perm_append_comm).append_right _
    rw [List.append_assoc l2] at h3
    exact (h1.trans h2).trans h3
  have t7 : Has m7 a 0 t := w7.keep _ _ _ (e6.has t5) (.inr (by decide))
  have st : Size m2 t (2 ^ e) := by have := n2.mySize; rwa [List.length_replicate] at this
  refine post_pure ⟨n1.ne0, _, ⟨⟨e7.blocks, w7.size _ _ (e6.size s5), t, x, y, l1, l2, t7, w7.here, ?_, (hx5.ext e6).wrote w7 na1, hy.wrote w7 na2, P⟩,
    t, t7, w7.size _ _ (e6.size (w5.size _ _ (e4.size (w3.size _ _ st))))⟩, e7⟩
  · exact w7.keep _ _ _ (e6.has w5.here) (.inr (by decide))

theorem polyInit_post {d r c m} :
    Post true (polyInit A d r c) m fun a m' => a ≠ 0 ∧ ∃ l, PolyAt m' a (d + 1) (d + 1) l ∧ Ext m l m' := by
  unfold polyInit
  refine post_bind (post_malloc fun a m1 n1 => ?_)
  have s1 : Size m1 a 4 := n1.mySize
  have e1 := (Ext.nil m).new n1
  refine post_bind (post_malloc fun x m2 n2 => ?_)
  have s2 := n2.size s1
  have sx : Size m2 x (d + 1) := by have := n2.mySize; rw [List.length_replicate] at this; exact this
  have nax : a ≠ x := n2.ne s1.live
  have e2 := e1.new n2
  refine post_bind (post_write s2 (by decide) fun m3 w3 => ?_)
  have s3 := w3.size _ _ s2
  have e3 := e2.wrote w3 (by simp)
  refine post_bind (post_write s3 (by decide) fun m4 w4 => ?_)
  have s4 := w4.size _ _ s3
  have e4 := e3.wrote w4 (by simp)
  refine post_bind (post_write s4 (by decide) fun m5 w5 => ?_)
  have s5 := w5.size _ _ s4
  have e5 := e4.wrote w5 (by simp)
  refine post_bind (post_write s5 (by decide) fun m6 w6 => ?_)
  have s6 := w6.size _ _ s5
  have e6 := e5.wrote w6 (by simp)
  have x6 : Has m6 a 0 x := w6.keep _ _ _ (w5.keep _ _ _ (w4.keep _ _ _ w3.here (.inr (by decide))) (.inr (by decide))) (.inr (by decide))
  have sx6 : Size m6 x (d + 1) := w6.size _ _ (w5.size _ _ (w4.size _ _ (w3.size _ _ sx)))
  refine post_bind (post_load w6.here ?_)
  refine post_bind (post_loop (fun i m' => ∃ xs l, xs.length = i ∧ Filled m' x 0 1 xs ∧ Ext m l m' ∧ l.Perm (a :: x :: xs) ∧ Size m' a 4 ∧
    Size m' x (d + 1) ∧ Has m' a 3 (d + 1) ∧ Has m' a 0 x) (d + 1)
    ⟨[], [x, a], rfl, Filled.nil, e6, List.Perm.swap _ _ _, s6, sx6, w6.here, x6⟩ ?_ ?_)
  · rintro i hi m' ⟨xs, l, hl, hF, hE, hp, hs, hsx, hd, hx⟩
    refine post_bind (post_mzdInit fun y m7 n7 => ?_)
    refine post_bind (post_load (n7.has hx) ?_)
    refine post_write (n7.size hsx) hi fun m8 w8 => ?_
    have e8 := (hE.new n7).wrote w8 (List.mem_cons_of_mem _ (hp.mem_iff.2 (by simp)))
    refine ⟨xs ++ [y], y :: l, by rw [List.length_append, hl]; rfl, ?_, e8, perm_snoc y hp, w8.size _ _ (n7.size hs), w8.size _ _ (n7.size hsx),
      w8.keep _ _ _ (n7.has hd) (.inl nax), w8.keep _ _ _ (n7.has hx) (.inl nax)⟩
    refine (hF.new n7).push ?_ n7.mySize
    rw [Nat.zero_add, hl]; exact w8
  · rintro m' ⟨xs, l, hl, hF, hE, hp, hs, hsx, hd, hx⟩
    refine post_pure ⟨n1.ne0, l, ⟨hE.blocks, hs, hd, Nat.le_refl _, x, xs, hx, hsx, hl, ?_, hp.symm⟩, hE⟩
    intro i y hy
    have := hF i y hy
    rw [Nat.zero_add] at this
    exact this

end M4rie.Mem
