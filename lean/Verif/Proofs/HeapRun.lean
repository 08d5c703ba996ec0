import Verif.Spec.Heap
/-!
# Concrete executions

An interpreter for the language of `Spec/Heap.lean` with finite heaps and a list of choices; what it computes is an execution
(`run_exec`).  It provides the witnesses that executions exist and that leaks and faults happen.
-/
namespace M4rie.Res

variable {F : Type}

/-- finite heaps -/
abbrev FHeap := List (Nat × Obj)

def FHeap.at (l : FHeap) : Heap := fun n => match l.find? (fun x => x.1 == n) with | some x => some x.2 | none => none

def FHeap.put (l : FHeap) (n : Nat) (o : Obj) : FHeap := (n, o) :: l

def FHeap.rm (l : FHeap) (n : Nat) : FHeap := l.filter fun x => !(x.1 == n)

/-- an unused address -/
def FHeap.next (l : FHeap) : Nat := l.foldl (fun m x => max m (x.1 + 1)) 0

theorem FHeap.at_put (l : FHeap) (n : Nat) (o : Obj) : (l.put n o).at = l.at.set n (some o) := by
  funext m
  show (match ((n, o) :: l).find? (fun x => x.1 == m) with | some x => some x.2 | none => none) = (if m = n then some o else l.at m)
  by_cases c : m = n
  · rw [if_pos c, List.find?_cons_of_pos (by simp [c])]
  · rw [if_neg c, List.find?_cons_of_neg (by simp; omega)]; rfl

theorem FHeap.at_rm (l : FHeap) (n : Nat) : (l.rm n).at = l.at.set n none := by
  funext m
  show (match (l.filter fun x => !(x.1 == n)).find? (fun x => x.1 == m) with | some x => some x.2 | none => none) = (if m = n then none else l.at m)
  by_cases c : m = n
  · rw [if_pos c]
    have : (l.filter fun x => !(x.1 == n)).find? (fun x => x.1 == m) = none := by
      rw [List.find?_eq_none]
      intro x hx
      rw [List.mem_filter] at hx
      have := hx.2
      simp at this ⊢
      omega
    rw [this]
  · rw [if_neg c]
    unfold FHeap.at
    congr 1
    induction l with
    | nil => rfl
    | cons x l ih =>
      by_cases h1 : x.1 = n
      · rw [List.filter_cons_of_neg (by simp [h1]), ih, List.find?_cons_of_neg (by simp; omega)]
      · rw [List.filter_cons_of_pos (by simp [h1])]
        by_cases h2 : x.1 = m
        · rw [List.find?_cons_of_pos (by simp [h2]), List.find?_cons_of_pos (by simp [h2])]
        · rw [List.find?_cons_of_neg (by simp [h2]), List.find?_cons_of_neg (by simp [h2]), ih]

theorem FHeap.foldl_le (l : FHeap) : ∀ a, a ≤ l.foldl (fun m x => max m (x.1 + 1)) a ∧ ∀ x ∈ l, x.1 + 1 ≤ l.foldl (fun m x => max m (x.1 + 1)) a := by
  induction l with
  | nil => intro a; exact ⟨Nat.le_refl _, fun x hx => by cases hx⟩
  | cons y l ih =>
    intro a
    obtain ⟨h1, h2⟩ := ih (max a (y.1 + 1))
    refine ⟨by show a ≤ l.foldl _ (max a (y.1 + 1)); omega, ?_⟩
    intro x hx
    show x.1 + 1 ≤ l.foldl _ (max a (y.1 + 1))
    cases hx with
    | head => omega
    | tail _ hx => exact h2 x hx

theorem FHeap.at_next (l : FHeap) : l.at l.next = none := by
  unfold FHeap.at
  have : l.find? (fun x => x.1 == l.next) = none := by
    rw [List.find?_eq_none]
    intro x hx
    have := (l.foldl_le 0).2 x hx
    show ¬ (x.1 == l.next) = true
    have h : x.1 + 1 ≤ l.next := this
    simp
    omega
  rw [this]

/-- no window into `n` -/
def FHeap.noWin (l : FHeap) (n : Nat) : Bool := l.all fun x => !(x.2.parent == some n)

theorem FHeap.noWin_ok {l : FHeap} {n : Nat} (h : l.noWin n = true) : NoWindow l.at (.ptr n) := by
  intro n' hn m o hm hp
  cases hn
  unfold FHeap.at at hm
  cases hf : l.find? (fun x => x.1 == m) with
  | none => rw [hf] at hm; cases hm
  | some x =>
    rw [hf] at hm
    have hm : some x.2 = some o := hm
    have hx := List.mem_of_find?_eq_some hf
    have := List.all_eq_true.1 h x hx
    cases hm
    simp [hp] at this

/-- result: normal end, or a fault -/
abbrev Ran := Option (List Bool × Option (Env × FHeap))

/-- the interpreter: fuel, statement, choices (for `either` and `loop`), variables, heap -/
def run (T : F → Fn F) : Nat → Stmt F → List Bool → Env → FHeap → Ran
  | 0, _, _, _, _ => none
  | _ + 1, .skip, cs, e, l => some (cs, some (e, l))
  | t + 1, .seq p q, cs, e, l => match run T t p cs e l with
      | some (cs', some (e', l')) => run T t q cs' e' l'
      | some (cs', none) => some (cs', none)
      | none => none
  | _ + 1, .new x k, cs, e, l => some (cs, some (e.set x (.ptr l.next), l.put l.next ⟨k, none⟩))
  | _ + 1, .win x y k, cs, e, l => match e y with
      | .ptr m => if (l.at m).isSome then some (cs, some (e.set x (.ptr l.next), l.put l.next ⟨k, some m⟩)) else some (cs, none)
      | _ => some (cs, none)
  | _ + 1, .del x k, cs, e, l => match e x with
      | .ptr n => (match l.at n with
          | some o => if o.kind = k ∧ l.noWin n = true then some (cs, some (e, l.rm n)) else none
          | none => some (cs, none))
      | .null => if k = .mem then some (cs, some (e, l)) else some (cs, none)
      | _ => some (cs, none)
  | _ + 1, .use x k, cs, e, l => match e x with
      | .ptr n => (match l.at n with
          | some o => if o.kind = k then some (cs, some (e, l)) else some (cs, none)
          | none => some (cs, none))
      | _ => some (cs, none)
  | _ + 1, .null x, cs, e, l => some (cs, some (e.set x .null, l))
  | _ + 1, .flag x b, cs, e, l => some (cs, some (e.set x (.flag b), l))
  | _ + 1, .move x y, cs, e, l => some (cs, some (e.set x (e y), l))
  | _ + 1, .absorb x y, cs, e, l => match e x, e y with
      | .ptr m, .ptr n => if m ≠ n ∧ (l.at m).isSome = true ∧ l.noWin n = true then
          (match l.at n with
          | some ⟨_, none⟩ => some (cs, some (e, l.rm n))
          | _ => none) else none
      | _, _ => none
  | t + 1, .either p q, cs, e, l => match cs with
      | true :: cs => run T t p cs e l
      | false :: cs => run T t q cs e l
      | [] => none
  | t + 1, .ifNull x p q, cs, e, l => match e x with
      | .null => run T t p cs e l
      | .ptr _ => run T t q cs e l
      | _ => some (cs, none)
  | t + 1, .ifFlag x p q, cs, e, l => match e x with
      | .flag true => run T t p cs e l
      | .flag false => run T t q cs e l
      | _ => some (cs, none)
  | t + 1, .loop p, cs, e, l => match cs with
      | false :: cs => some (cs, some (e, l))
      | true :: cs => (match run T t p cs e l with
          | some (cs', some (e', l')) => run T t (.loop p) cs' e' l'
          | some (cs', none) => some (cs', none)
          | none => none)
      | [] => none
  | _ + 1, .die, _, _, _ => none
  | t + 1, .call r f args, cs, e, l => match run T t (T f).body cs (bindArgs (args.map (evalArg e))) l with
      | some (cs', some (e', l')) => some (cs', some (e.setOpt r ((T f).resultOf e'), l'))
      | some (cs', none) => some (cs', none)
      | none => none

/-- what the result stands for -/
def outOf : Option (Env × FHeap) → Out
  | some (e, l) => .ok e l.at
  | none => .fault

/-- what the interpreter computes is an execution -/
theorem run_exec (T : F → Fn F) : ∀ (t : Nat) (p : Stmt F) (cs : List Bool) (e : Env) (l : FHeap) (cs' : List Bool) (r : Option (Env × FHeap)),
    run T t p cs e l = some (cs', r) → Exec T p e l.at (outOf r) := by
  intro t
  induction t with
  | zero => intro p cs e l cs' r h; simp [run] at h
  | succ t ih =>
    intro p cs e l cs' r h
    cases p with
    | skip => simp only [run] at h; cases h; exact .skip
    | seq p q =>
      simp only [run] at h
      cases h1 : run T t p cs e l with
      | none => rw [h1] at h; cases h
      | some y =>
        obtain ⟨cs1, r1⟩ := y
        rw [h1] at h
        cases r1 with
        | none => cases h; exact .seqFault (ih _ _ _ _ _ _ h1)
        | some z => exact .seqOk (ih _ _ _ _ _ _ h1) (ih _ _ _ _ _ _ h)
    | new x k =>
      simp only [run] at h; cases h
      show Exec T _ e l.at (.ok _ _)
      rw [FHeap.at_put]
      exact .new l.at_next
    | win x y k =>
      simp only [run] at h
      cases hy : e y with
      | ptr m =>
        simp only [hy] at h
        cases hm : l.at m with
        | none =>
          simp only [hm] at h
          cases h
          refine .winFault ?_
          rintro ⟨n, h1, h2⟩
          rw [hy] at h1; cases h1; exact h2 hm
        | some o =>
          simp only [hm] at h
          cases h
          show Exec T _ e l.at (.ok _ _)
          rw [FHeap.at_put]
          exact .win hy (by rw [hm]; intro c; cases c) l.at_next
      | _ => simp only [hy] at h; cases h; refine .winFault ?_; rintro ⟨n, h1, _⟩; rw [hy] at h1; cases h1
    | del x k =>
      simp only [run] at h
      cases hx : e x with
      | ptr n =>
        simp only [hx] at h
        cases hn : l.at n with
        | none =>
          simp only [hn] at h; cases h
          refine .delFault ?_ ?_
          · rintro ⟨⟨m, p, h1, h2⟩, _⟩; rw [hx] at h1; cases h1; rw [hn] at h2; cases h2
          · rintro ⟨h1, _⟩; rw [hx] at h1; cases h1
        | some o =>
          simp only [hn] at h
          by_cases c : o.kind = k ∧ l.noWin n = true
          · simp only [c, and_self, if_true] at h
            cases h
            show Exec T _ e l.at (.ok _ _)
            rw [FHeap.at_rm]
            refine .del hx ⟨⟨n, o.parent, hx, ?_⟩, ?_⟩
            · rw [hn]; obtain ⟨k', p'⟩ := o; cases c.1; rfl
            · rw [hx]; exact FHeap.noWin_ok c.2
          · rw [if_neg c] at h; cases h
      | null =>
        simp only [hx] at h
        by_cases c : k = .mem
        · subst c; simp only [if_true] at h; cases h; exact .delNull hx
        · rw [if_neg c] at h; cases h
          refine .delFault ?_ ?_
          · rintro ⟨⟨m, p, h1, h2⟩, _⟩; rw [hx] at h1; cases h1
          · rintro ⟨_, h1⟩; exact c h1
      | _ =>
        simp only [hx] at h; cases h
        refine .delFault ?_ ?_
        · rintro ⟨⟨m, p, h1, h2⟩, _⟩; rw [hx] at h1; cases h1
        · rintro ⟨h1, _⟩; rw [hx] at h1; cases h1
    | use x k =>
      simp only [run] at h
      cases hx : e x with
      | ptr n =>
        simp only [hx] at h
        cases hn : l.at n with
        | none =>
          simp only [hn] at h; cases h
          refine .useFault ?_
          rintro ⟨m, p, h1, h2⟩; rw [hx] at h1; cases h1; rw [hn] at h2; cases h2
        | some o =>
          simp only [hn] at h
          by_cases c : o.kind = k
          · rw [if_pos c] at h; cases h
            refine .use ⟨n, o.parent, hx, ?_⟩
            rw [hn]; obtain ⟨k', p'⟩ := o; cases c; rfl
          · rw [if_neg c] at h; cases h
            refine .useFault ?_
            rintro ⟨m, p, h1, h2⟩; rw [hx] at h1; cases h1; rw [hn] at h2; cases h2; exact c rfl
      | _ => simp only [hx] at h; cases h; refine .useFault ?_; rintro ⟨m, p, h1, h2⟩; rw [hx] at h1; cases h1
    | null x => simp only [run] at h; cases h; exact .null
    | flag x b => simp only [run] at h; cases h; exact .flag
    | move x y => simp only [run] at h; cases h; exact .move
    | absorb x y =>
      simp only [run] at h
      cases hx : e x with
      | ptr m =>
        cases hy : e y with
        | ptr n =>
          simp only [hx, hy] at h
          by_cases c : m ≠ n ∧ (l.at m).isSome = true ∧ l.noWin n = true
          · rw [if_pos c] at h
            cases hn : l.at n with
            | none => simp only [hn] at h; cases h
            | some o =>
              obtain ⟨k, p⟩ := o
              cases p with
              | some z => simp only [hn] at h; cases h
              | none =>
                simp only [hn] at h
                cases h
                show Exec T _ e l.at (.ok _ _)
                rw [FHeap.at_rm]
                refine .absorb ⟨m, hx, ?_⟩ ?_ hy ⟨n, k, hy, hn, ?_⟩
                · intro c'; rw [c'] at c; cases c.2.1
                · rw [hx, hy]; intro c'; cases c'; exact c.1 rfl
                · rw [hy]; exact FHeap.noWin_ok c.2.2
          · rw [if_neg c] at h; cases h
        | _ => simp only [hx, hy] at h; cases h
      | _ => simp only [hx] at h; cases h
    | either p q =>
      cases cs with
      | nil => simp only [run] at h; cases h
      | cons b cs =>
        cases b with
        | true => simp only [run] at h; exact .left (ih _ _ _ _ _ _ h)
        | false => simp only [run] at h; exact .right (ih _ _ _ _ _ _ h)
    | ifNull x p q =>
      simp only [run] at h
      cases hx : e x with
      | null => simp only [hx] at h; exact .isNull hx (ih _ _ _ _ _ _ h)
      | ptr n => simp only [hx] at h; exact .notNull hx (ih _ _ _ _ _ _ h)
      | _ =>
        simp only [hx] at h; cases h
        exact .nullFault (by rw [hx]; intro c; cases c) (by intro n c; rw [hx] at c; cases c)
    | ifFlag x p q =>
      simp only [run] at h
      cases hx : e x with
      | flag b =>
        cases b with
        | true => simp only [hx] at h; exact .isSet hx (ih _ _ _ _ _ _ h)
        | false => simp only [hx] at h; exact .notSet hx (ih _ _ _ _ _ _ h)
      | _ => simp only [hx] at h; cases h; exact .flagFault (by intro b c; rw [hx] at c; cases c)
    | loop p =>
      cases cs with
      | nil => simp only [run] at h; cases h
      | cons b cs =>
        cases b with
        | false => simp only [run] at h; cases h; exact .loopDone
        | true =>
          simp only [run] at h
          cases h1 : run T t p cs e l with
          | none => rw [h1] at h; cases h
          | some y =>
            obtain ⟨cs1, r1⟩ := y
            rw [h1] at h
            cases r1 with
            | none => cases h; exact .loopFault (ih _ _ _ _ _ _ h1)
            | some z => exact .loopStep (ih _ _ _ _ _ _ h1) (ih _ _ _ _ _ _ h)
    | die => simp only [run] at h; cases h
    | call r' f args =>
      simp only [run] at h
      cases h1 : run T t (T f).body cs (bindArgs (args.map (evalArg e))) l with
      | none => rw [h1] at h; cases h
      | some y =>
        obtain ⟨cs1, r1⟩ := y
        rw [h1] at h
        cases r1 with
        | none => cases h; exact .callFault (ih _ _ _ _ _ _ h1)
        | some z => cases h; exact .call (ih _ _ _ _ _ _ h1)

/-- a run that ends normally, with a result and a heap satisfying `P` -/
def runsTo (T : F → Fn F) (f : F) (t : Nat) (cs : List Bool) (vals : List Val) (l : FHeap) (P : Val → FHeap → Bool) : Bool :=
  match run T t (T f).body cs (bindArgs vals) l with
  | some (_, some (e, l')) => P ((T f).resultOf e) l'
  | _ => false

theorem runsTo_exec {T : F → Fn F} {f : F} {t : Nat} {cs : List Bool} {vals : List Val} {l : FHeap} {P : Val → FHeap → Bool}
    (h : runsTo T f t cs vals l P = true) :
    ∃ e' l', Exec T (T f).body (bindArgs vals) l.at (.ok e' l'.at) ∧ P ((T f).resultOf e') l' = true := by
  unfold runsTo at h
  cases h1 : run T t (T f).body cs (bindArgs vals) l with
  | none => rw [h1] at h; cases h
  | some y =>
    obtain ⟨cs1, r1⟩ := y
    rw [h1] at h
    cases r1 with
    | none => cases h
    | some z => exact ⟨z.1, z.2, run_exec T _ _ _ _ _ _ _ h1, h⟩

end M4rie.Res
