import Verif.Spec.Heap
import Verif.Proofs.HeapRun
/-! # Sessions, and witnesses of leaks -/
namespace M4rie.Res

variable {F : Type} {T : F → Fn F}

theorem Heap.set_self_ (h : Heap) (n : Nat) (o : Option Obj) : (h.set n o) n = o := by unfold Heap.set; rw [if_pos rfl]

theorem Heap.set_ne_ (h : Heap) {n m : Nat} (o : Option Obj) (c : m ≠ n) : (h.set n o) m = h m := by unfold Heap.set; rw [if_neg c]

/-- the heap is the ledger plus abandoned objects -/
def Covers (h g : Heap) : Prop := (∀ n o, g n = some o → h n = some o) ∧ (∀ n o, h n = some o → g n = some o ∨ (g n = none ∧ o.parent = none))

theorem Covers.closed {h g : Heap} (c : Covers h g) (hg : Closed g) : Closed h := by
  intro n o p hn hp
  cases c.2 n o hn with
  | inl h1 =>
    have := hg n o p h1 hp
    cases hgp : g p with
    | none => exact absurd hgp this
    | some o' => rw [c.1 p o' hgp]; intro c; cases c
  | inr h1 => rw [h1.2] at hp; cases hp

theorem Covers.args {h g : Heap} (c : Covers h g) {ks nulls vals} (ha : ArgsOk g ks nulls vals) : ArgsOk h ks nulls vals := by
  refine ⟨ha.1, ha.2.1, ?_⟩
  intro i k v h1 h2
  cases ha.2.2 i k v h1 h2 with
  | inl x => exact .inl x
  | inr x => obtain ⟨x, n, p, y, z⟩ := x; exact .inr ⟨x, n, p, y, c.1 _ _ z⟩

theorem Covers.set {h g : Heap} (c : Covers h g) (n : Nat) (o : Option Obj) : Covers (h.set n o) (g.set n o) := by
  refine ⟨?_, ?_⟩
  · intro m o' hm
    by_cases e : m = n
    · subst e; rw [Heap.set_self_] at hm ⊢; exact hm
    · rw [Heap.set_ne_ _ _ e] at hm ⊢; exact c.1 _ _ hm
  · intro m o' hm
    by_cases e : m = n
    · subst e; rw [Heap.set_self_] at hm ⊢; exact .inl hm
    · rw [Heap.set_ne_ _ _ e] at hm ⊢; exact c.2 _ _ hm

theorem Covers.trans_same {leaks : Bool} {g h h' : Heap} (c : Covers h g) (s : Same leaks h h') : Covers h' g := by
  cases leaks with
  | false => have s : h' = h := s; rw [s]; exact c
  | true =>
    have s : (∀ n o, h n = some o → h' n = some o) ∧ (∀ n o, h' n = some o → h n = some o ∨ (h n = none ∧ o.parent = none)) := s
    refine ⟨fun n o hn => s.1 _ _ (c.1 _ _ hn), ?_⟩
    intro n o hn
    cases s.2 n o hn with
    | inl h1 => exact c.2 n o h1
    | inr h1 =>
      refine .inr ⟨?_, h1.2⟩
      cases hg : g n with
      | none => rfl
      | some o' => rw [c.1 n o' hg] at h1; cases h1.1

theorem closed_new {g : Heap} (hg : Closed g) {n : Nat} (k : Kind) : Closed (g.set n (some ⟨k, none⟩)) := by
  intro m o p hm hp
  by_cases e : m = n
  · subst e; rw [Heap.set_self_] at hm; cases hm; cases hp
  · rw [Heap.set_ne_ _ _ e] at hm
    have := hg m o p hm hp
    by_cases e' : p = n
    · subst e'; rw [Heap.set_self_]; intro c; cases c
    · rw [Heap.set_ne_ _ _ e']; exact this

theorem session_inv {ways : F → List Sig} (safe : ∀ f, ∀ s ∈ ways f, Safe T f s) {h g : Heap} (S : Session T ways h g) :
    Covers h g ∧ Closed g := by
  induction S with
  | start =>
    refine ⟨⟨?_, ?_⟩, ?_⟩
    · intro n o h; cases h
    · intro n o h; cases h
    · intro n o p h; cases h
  | @new h g n k _ hn ih => exact ⟨ih.1.set _ _, closed_new ih.2 k⟩
  | @window h g m n k _ hm hn ih =>
    refine ⟨ih.1.set _ _, ?_⟩
    intro a o p ha hp
    by_cases e : a = n
    · subst e; rw [Heap.set_self_] at ha; cases ha; cases hp
      by_cases e' : m = a
      · subst e'; rw [Heap.set_self_]; intro c; cases c
      · rw [Heap.set_ne_ _ _ e']; exact hm
    · rw [Heap.set_ne_ _ _ e] at ha
      have := ih.2 a o p ha hp
      by_cases e' : p = n
      · subst e'; rw [Heap.set_self_]; intro c; cases c
      · rw [Heap.set_ne_ _ _ e']; exact this
  | @free h g n k _ hf ih =>
    refine ⟨ih.1.set _ _, ?_⟩
    intro a o p ha hp
    by_cases e : a = n
    · subst e; rw [Heap.set_self_] at ha; cases ha
    · rw [Heap.set_ne_ _ _ e] at ha
      have := ih.2 a o p ha hp
      by_cases e' : p = n
      · subst e'; exact absurd hp (hf.2 p rfl a o ha)
      · rw [Heap.set_ne_ _ _ e']; exact this
  | @call h g f s vals e' h' _ hs ha hx ih =>
    have R := ((safe f s hs) h vals (ih.1.closed ih.2) (ih.1.args ha)).2 e' h' hx
    unfold Returns at R
    unfold ledgerAfter
    obtain ⟨nulls, gives, leaks⟩ := s
    cases gives with
    | nothing => exact ⟨ih.1.trans_same R, ih.2⟩
    | arg i => exact ⟨ih.1.trans_same R.1, ih.2⟩
    | fresh k =>
      obtain ⟨n, hv, hn, R⟩ := R
      rw [hv]
      exact ⟨(ih.1.set n _).trans_same R, closed_new ih.2 k⟩

theorem session_exact {ways : F → List Sig} (safe : ∀ f, ∀ s ∈ ways f, Safe T f s) (noleak : ∀ f, ∀ s ∈ ways f, s.leaks = false)
    {h g : Heap} (S : Session T ways h g) : h = g := by
  induction S with
  | start => rfl
  | new _ _ ih => rw [ih]
  | window _ _ _ ih => rw [ih]
  | free _ _ ih => rw [ih]
  | @call h g f s vals e' h' S hs ha hx ih =>
    obtain ⟨c, hc⟩ := session_inv safe S
    have R := ((safe f s hs) h vals (c.closed hc) (c.args ha)).2 e' h' hx
    have nl := noleak f s hs
    unfold Returns at R
    unfold ledgerAfter
    obtain ⟨nulls, gives, leaks⟩ := s
    cases nl
    subst ih
    cases gives with
    | nothing => exact R
    | arg i => exact R.1
    | fresh k =>
      obtain ⟨n, hv, hn, R⟩ := R
      rw [hv]
      exact R

/-! ## witnesses -/

theorem FHeap.at_isSome {l : FHeap} {x : Nat × Obj} (h : x ∈ l) : l.at x.1 ≠ none := by
  unfold FHeap.at
  cases hf : l.find? (fun y => y.1 == x.1) with
  | none =>
    rw [List.find?_eq_none] at hf
    exact absurd (by simp) (hf x h)
  | some y => intro c; cases c

theorem FHeap.at_mem {l : FHeap} {n : Nat} {o : Obj} (h : l.at n = some o) : (n, o) ∈ l := by
  unfold FHeap.at at h
  cases hf : l.find? (fun y => y.1 == n) with
  | none => rw [hf] at h; cases h
  | some y =>
    rw [hf] at h
    have h : some y.2 = some o := h
    have h1 := List.find?_some hf
    have h2 := List.mem_of_find?_eq_some hf
    have h1 : y.1 = n := by simpa using h1
    cases h
    cases h1
    exact h2

/-- no windows -/
def FHeap.plain (l : FHeap) : Bool := l.all fun x => x.2.parent == none

theorem FHeap.closed {l : FHeap} (h : l.plain = true) : Closed l.at := by
  intro n o p hn hp
  have := List.all_eq_true.1 h _ (FHeap.at_mem hn)
  simp [hp] at this

/-- the arguments are as announced -/
def FHeap.args (l : FHeap) (ks : List Kind) (nulls : List Bool) (vals : List Val) : Bool :=
  nulls.length == ks.length && (vals.length == ks.length && (List.range ks.length).all fun i => match ks[i]?, nulls[i]?, vals[i]? with
    | some _, some true, some .null => true
    | some k, some false, some (.ptr n) => (match l.at n with | some o => o.kind == k | none => false)
    | _, _, _ => false)

theorem FHeap.args_ok {l : FHeap} {ks nulls vals} (h : l.args ks nulls vals = true) : ArgsOk l.at ks nulls vals := by
  unfold FHeap.args at h
  rw [Bool.and_eq_true, Bool.and_eq_true, List.all_eq_true] at h
  obtain ⟨h1, h2, h3⟩ := h
  refine ⟨by simpa using h1, by simpa using h2, ?_⟩
  intro i k v hk hv
  have hi : i < ks.length := by
    rcases Nat.lt_or_ge i ks.length with c | c
    · exact c
    · rw [List.getElem?_eq_none c] at hk; cases hk
  have := h3 i (List.mem_range.2 hi)
  rw [hk, hv] at this
  cases hn : nulls[i]? with
  | none => rw [hn] at this; simp at this
  | some b =>
    rw [hn] at this
    cases b with
    | true =>
      cases v with
      | null => exact .inl ⟨rfl, rfl⟩
      | _ => simp at this
    | false =>
      cases v with
      | ptr n =>
        refine .inr ⟨rfl, ?_⟩
        cases hl : l.at n with
        | none => simp [hl] at this
        | some o =>
          simp [hl] at this
          obtain ⟨k', p⟩ := o
          cases this
          exact ⟨n, p, rfl, hl⟩
      | _ => simp at this

/-- something is left behind: an object that was not there before and is not the result -/
def leftover (l : FHeap) (v : Val) (l' : FHeap) : Bool := l'.any fun x => (l.at x.1).isNone && !(v == .ptr x.1)

theorem leak_unsafe {f : F} {t cs vals} {l : FHeap} {s : Sig} (hc : l.plain = true) (ha : l.args (T f).params s.nulls vals = true)
    (hr : runsTo T f t cs vals l (leftover l) = true) (hs : s.leaks = false) : ¬ Safe T f s := by
  intro S
  obtain ⟨e', l', hx, hP⟩ := runsTo_exec hr
  have R := (S l.at vals (FHeap.closed hc) (FHeap.args_ok ha)).2 _ _ hx
  unfold leftover at hP
  rw [List.any_eq_true] at hP
  obtain ⟨x, hx', hP⟩ := hP
  rw [Bool.and_eq_true] at hP
  have h1 : l.at x.1 = none := by simpa using hP.1
  have h2 : (T f).resultOf e' ≠ .ptr x.1 := by simpa using hP.2
  have h3 := FHeap.at_isSome hx'
  unfold Returns at R
  obtain ⟨nulls, gives, leaks⟩ := s
  cases hs
  cases gives with
  | nothing => have R : l'.at = l.at := R; rw [R] at h3; exact h3 h1
  | arg i => have R : l'.at = l.at := R.1; rw [R] at h3; exact h3 h1
  | fresh k =>
    obtain ⟨n, hv, hn, R⟩ := R
    have R : l'.at = l.at.set n (some ⟨k, none⟩) := R
    rw [R, Heap.set_ne_] at h3
    · exact h3 h1
    · intro c; rw [c] at h2; exact h2 hv

end M4rie.Res

namespace M4rie.Res

/-! ## Replacing routines that are not called -/

/-- the statement calls only routines in `S` -/
def CallsIn {F : Type} (S : F → Bool) : Stmt F → Bool
  | .seq p q => CallsIn S p && CallsIn S q
  | .either p q => CallsIn S p && CallsIn S q
  | .ifNull _ p q => CallsIn S p && CallsIn S q
  | .ifFlag _ p q => CallsIn S p && CallsIn S q
  | .loop p => CallsIn S p
  | .call _ f _ => S f
  | _ => true

theorem Exec.transport {F : Type} {T T' : F → Fn F} {S : F → Bool} (hT : ∀ f, S f = true → T' f = T f)
    (hS : ∀ f, S f = true → CallsIn S (T f).body = true) {p : Stmt F} {e : Env} {h : Heap} {o : Out}
    (x : Exec T p e h o) : CallsIn S p = true → Exec T' p e h o := by
  induction x with
  | skip => intro _; exact .skip
  | seqOk _ _ i1 i2 => intro c; rw [CallsIn, Bool.and_eq_true] at c; exact .seqOk (i1 c.1) (i2 c.2)
  | seqFault _ i => intro c; rw [CallsIn, Bool.and_eq_true] at c; exact .seqFault (i c.1)
  | seqDead _ i => intro c; rw [CallsIn, Bool.and_eq_true] at c; exact .seqDead (i c.1)
  | new a => intro _; exact .new a
  | win a b c => intro _; exact .win a b c
  | winFault a => intro _; exact .winFault a
  | del a b => intro _; exact .del a b
  | delNull a => intro _; exact .delNull a
  | delFault a b => intro _; exact .delFault a b
  | use a => intro _; exact .use a
  | useFault a => intro _; exact .useFault a
  | null => intro _; exact .null
  | flag => intro _; exact .flag
  | move => intro _; exact .move
  | absorb a b c d => intro _; exact .absorb a b c d
  | absorbFault a => intro _; exact .absorbFault a
  | left _ i => intro c; rw [CallsIn, Bool.and_eq_true] at c; exact .left (i c.1)
  | right _ i => intro c; rw [CallsIn, Bool.and_eq_true] at c; exact .right (i c.2)
  | isNull a _ i => intro c; rw [CallsIn, Bool.and_eq_true] at c; exact .isNull a (i c.1)
  | notNull a _ i => intro c; rw [CallsIn, Bool.and_eq_true] at c; exact .notNull a (i c.2)
  | nullFault a b => intro _; exact .nullFault a b
  | isSet a _ i => intro c; rw [CallsIn, Bool.and_eq_true] at c; exact .isSet a (i c.1)
  | notSet a _ i => intro c; rw [CallsIn, Bool.and_eq_true] at c; exact .notSet a (i c.2)
  | flagFault a => intro _; exact .flagFault a
  | loopDone => intro _; exact .loopDone
  | loopStep _ _ i1 i2 => intro c; exact .loopStep (i1 c) (i2 c)
  | loopFault _ i => intro c; exact .loopFault (i c)
  | loopDead _ i => intro c; exact .loopDead (i c)
  | die => intro _; exact .die
  | @call r f args e h e1 h1 _ i =>
    intro c
    have c : S f = true := c
    have i := i (hS f c)
    rw [← hT f c] at i ⊢
    exact .call i
  | @callFault r f args e h _ i =>
    intro c
    have c : S f = true := c
    have i := i (hS f c)
    rw [← hT f c] at i
    exact .callFault i
  | @callDead r f args e h _ i =>
    intro c
    have c : S f = true := c
    have i := i (hS f c)
    rw [← hT f c] at i
    exact .callDead i

end M4rie.Res
