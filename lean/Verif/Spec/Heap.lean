/-!
# Objects on the heap

A small language for what C routines do with *objects* (matrices, permutations, tables, fields ...): create them, create windows into
them, use them, release them, pass them to other routines.  Everything else a routine does - arithmetic, comparisons of sizes, loop
bounds - is left open: a condition the language does not know is a nondeterministic choice, a loop runs any number of times.  A statement
about *all* executions in this language is therefore a statement about all inputs of the routine.

* An object is *live* from its creation to its release; a window refers to the object it was cut from (its parent).
* Releasing something that is not live, releasing an object into which a window still exists, using something that is not live (or is of
  the wrong kind), asking whether an uninitialised variable is `NULL`: these are **faults** (undefined behaviour in C).
* `m4ri_die` ends the program: the outcome `dead`.
* A new object gets any address that is not in use; addresses of released objects may come back.
-/
namespace M4rie.Res

/-- the kinds of objects: packed matrix, sliced matrix, matrix over GF(2) of M4RI, permutation, Newton-John table, field, plain memory,
array of matrices, straight-line program of M4RI (`djb_t`), bilinear map, polynomial over matrices -/
inductive Kind | mzed | slice | mzd | mzp | njt | field | mem | arr | djb | blm | poly
deriving DecidableEq, Repr

/-- the value of a variable -/
inductive Val | undef | null | flag (b : Bool) | ptr (n : Nat)
deriving DecidableEq, Repr

/-- an object: its kind and, for a window, the object it is a window of -/
structure Obj where
  kind : Kind
  parent : Option Nat
deriving DecidableEq, Repr

abbrev Heap := Nat → Option Obj

def Heap.set (h : Heap) (n : Nat) (o : Option Obj) : Heap := fun m => if m = n then o else h m

abbrev Env := Nat → Val

def Env.set (e : Env) (x : Nat) (v : Val) : Env := fun y => if y = x then v else e y

/-- statements; `F` is the type of names of routines, variables are numbers, variable `i` is parameter `i` as long as there are parameters -/
inductive Stmt (F : Type) where
  | skip
  | seq (p q : Stmt F)
  /-- `x = ..._init(...)` -/
  | new (x : Nat) (k : Kind)
  /-- `x = ..._init_window(y, ...)` -/
  | win (x y : Nat) (k : Kind)
  /-- `..._free(x)` -/
  | del (x : Nat) (k : Kind)
  /-- read or write the contents of `x` -/
  | use (x : Nat) (k : Kind)
  /-- `x = NULL`, or the end of the scope of `x` -/
  | null (x : Nat)
  /-- `x = 0`, `x = 1` -/
  | flag (x : Nat) (b : Bool)
  /-- `x = y` -/
  | move (x y : Nat)
  /-- `x->member = y`: `y` becomes a part of `x` and is released together with it -/
  | absorb (x y : Nat)
  /-- a condition on the data -/
  | either (p q : Stmt F)
  /-- `if (x == NULL) p else q` -/
  | ifNull (x : Nat) (p q : Stmt F)
  /-- `if (x) p else q` for a flag -/
  | ifFlag (x : Nat) (p q : Stmt F)
  /-- any number of iterations -/
  | loop (p : Stmt F)
  /-- `m4ri_die` -/
  | die
  /-- `r = f(args)`, where a missing variable among the arguments is `NULL` -/
  | call (r : Option Nat) (f : F) (args : List (Option Nat))

/-- a routine: the kinds of its parameters (those that are objects), the variable it returns (if it returns an object), its body -/
structure Fn (F : Type) where
  params : List Kind
  result : Option Nat
  body : Stmt F

inductive Out
  | ok (e : Env) (h : Heap)
  | fault
  | dead

/-- `v` is a live object of kind `k` -/
def Live (h : Heap) (v : Val) (k : Kind) : Prop := ∃ n p, v = .ptr n ∧ h n = some ⟨k, p⟩

/-- `v` is a live object -/
def Alive (h : Heap) (v : Val) : Prop := ∃ n, v = .ptr n ∧ h n ≠ none

/-- there is no window into `v` -/
def NoWindow (h : Heap) (v : Val) : Prop := ∀ n, v = .ptr n → ∀ m o, h m = some o → o.parent ≠ some n

/-- `free(x)` is allowed: a live object of kind `k` without windows -/
def Freeable (h : Heap) (v : Val) (k : Kind) : Prop := Live h v k ∧ NoWindow h v

/-- `y` can become a part of another object -/
def Absorbable (h : Heap) (v : Val) : Prop := ∃ n k, v = .ptr n ∧ h n = some ⟨k, none⟩ ∧ NoWindow h v

def Env.setOpt (e : Env) (r : Option Nat) (v : Val) : Env := match r with | none => e | some x => e.set x v

/-- arguments of a call -/
def evalArg (e : Env) : Option Nat → Val | none => .null | some x => e x

/-- the variables of a routine at the start: the parameters -/
def bindArgs (vals : List Val) : Env := fun x => (vals[x]?).getD .undef

variable {F : Type}

/-- the value a routine returns -/
def Fn.resultOf (f : Fn F) (e : Env) : Val := match f.result with | none => .undef | some x => e x

/-- the executions of a statement -/
inductive Exec (T : F → Fn F) : Stmt F → Env → Heap → Out → Prop
  | skip {e h} : Exec T .skip e h (.ok e h)
  | seqOk {p q e h e1 h1 o} : Exec T p e h (.ok e1 h1) → Exec T q e1 h1 o → Exec T (.seq p q) e h o
  | seqFault {p q e h} : Exec T p e h .fault → Exec T (.seq p q) e h .fault
  | seqDead {p q e h} : Exec T p e h .dead → Exec T (.seq p q) e h .dead
  | new {x k e h n} : h n = none → Exec T (.new x k) e h (.ok (e.set x (.ptr n)) (h.set n (some ⟨k, none⟩)))
  | win {x y k e h m n} : e y = .ptr m → h m ≠ none → h n = none →
      Exec T (.win x y k) e h (.ok (e.set x (.ptr n)) (h.set n (some ⟨k, some m⟩)))
  | winFault {x y k e h} : ¬ Alive h (e y) → Exec T (.win x y k) e h .fault
  | del {x k e h n} : e x = .ptr n → Freeable h (e x) k → Exec T (.del x k) e h (.ok e (h.set n none))
  | delNull {x e h} : e x = .null → Exec T (.del x .mem) e h (.ok e h)
  | delFault {x k e h} : ¬ Freeable h (e x) k → ¬ (e x = .null ∧ k = .mem) → Exec T (.del x k) e h .fault
  | use {x k e h} : Live h (e x) k → Exec T (.use x k) e h (.ok e h)
  | useFault {x k e h} : ¬ Live h (e x) k → Exec T (.use x k) e h .fault
  | null {x e h} : Exec T (.null x) e h (.ok (e.set x .null) h)
  | flag {x b e h} : Exec T (.flag x b) e h (.ok (e.set x (.flag b)) h)
  | move {x y e h} : Exec T (.move x y) e h (.ok (e.set x (e y)) h)
  | absorb {x y e h n} : Alive h (e x) → e x ≠ e y → e y = .ptr n → Absorbable h (e y) → Exec T (.absorb x y) e h (.ok e (h.set n none))
  | absorbFault {x y e h} : ¬ (Alive h (e x) ∧ e x ≠ e y ∧ Absorbable h (e y)) → Exec T (.absorb x y) e h .fault
  | left {p q e h o} : Exec T p e h o → Exec T (.either p q) e h o
  | right {p q e h o} : Exec T q e h o → Exec T (.either p q) e h o
  | isNull {x p q e h o} : e x = .null → Exec T p e h o → Exec T (.ifNull x p q) e h o
  | notNull {x p q e h o n} : e x = .ptr n → Exec T q e h o → Exec T (.ifNull x p q) e h o
  | nullFault {x p q e h} : e x ≠ .null → (∀ n, e x ≠ .ptr n) → Exec T (.ifNull x p q) e h .fault
  | isSet {x p q e h o} : e x = .flag true → Exec T p e h o → Exec T (.ifFlag x p q) e h o
  | notSet {x p q e h o} : e x = .flag false → Exec T q e h o → Exec T (.ifFlag x p q) e h o
  | flagFault {x p q e h} : (∀ b, e x ≠ .flag b) → Exec T (.ifFlag x p q) e h .fault
  | loopDone {p e h} : Exec T (.loop p) e h (.ok e h)
  | loopStep {p e h e1 h1 o} : Exec T p e h (.ok e1 h1) → Exec T (.loop p) e1 h1 o → Exec T (.loop p) e h o
  | loopFault {p e h} : Exec T p e h .fault → Exec T (.loop p) e h .fault
  | loopDead {p e h} : Exec T p e h .dead → Exec T (.loop p) e h .dead
  | die {e h} : Exec T .die e h .dead
  | call {r f args e h e1 h1} : Exec T (T f).body (bindArgs (args.map (evalArg e))) h (.ok e1 h1) →
      Exec T (.call r f args) e h (.ok (e.setOpt r ((T f).resultOf e1)) h1)
  | callFault {r f args e h} : Exec T (T f).body (bindArgs (args.map (evalArg e))) h .fault → Exec T (.call r f args) e h .fault
  | callDead {r f args e h} : Exec T (T f).body (bindArgs (args.map (evalArg e))) h .dead → Exec T (.call r f args) e h .dead

/-! ## What a caller may rely on -/

/-- what a routine returns: no object; a new object of kind `k`; its argument number `i` -/
inductive Gives | nothing | fresh (k : Kind) | arg (i : Nat)
deriving DecidableEq, Repr

/-- a way to call a routine: which arguments are `NULL`, what it returns then, and whether it may leave objects behind (a leak) -/
structure Sig where
  nulls : List Bool
  gives : Gives
  leaks : Bool := false
deriving DecidableEq, Repr

/-- the arguments are as announced: `NULL`, or live objects of the right kinds (which may be the same object several times) -/
def ArgsOk (h : Heap) (ks : List Kind) (nulls : List Bool) (vals : List Val) : Prop :=
  nulls.length = ks.length ∧ vals.length = ks.length ∧
    ∀ (i : Nat) k v, ks[i]? = some k → vals[i]? = some v → (nulls[i]? = some true ∧ v = .null) ∨ (nulls[i]? = some false ∧ Live h v k)

/-- windows are windows of live objects -/
def Closed (h : Heap) : Prop := ∀ n o p, h n = some o → o.parent = some p → h p ≠ none

/-- `h'` consists of the objects of `h` and, if leaks are admitted, of abandoned objects -/
def Same (leaks : Bool) (h h' : Heap) : Prop :=
  if leaks then (∀ n o, h n = some o → h' n = some o) ∧ (∀ n o, h' n = some o → h n = some o ∨ (h n = none ∧ o.parent = none)) else h' = h

/-- the objects after the call, `v` being the returned value: those from before, and the returned object if it is new -/
def Returns (h : Heap) (vals : List Val) (v : Val) (h' : Heap) (s : Sig) : Prop :=
  match s.gives with
  | .nothing => Same s.leaks h h'
  | .arg i => Same s.leaks h h' ∧ vals[i]? = some v
  | .fresh k => ∃ n, v = .ptr n ∧ h n = none ∧ Same s.leaks (h.set n (some ⟨k, none⟩)) h'

/-- Calling routine `f` in the way `s` is safe: no execution commits a fault, and every execution that returns has released everything it
created except what it returns, and nothing else. -/
def Safe (T : F → Fn F) (f : F) (s : Sig) : Prop :=
  ∀ h vals, Closed h → ArgsOk h (T f).params s.nulls vals →
    ¬ Exec T (T f).body (bindArgs vals) h .fault ∧
    ∀ e' h', Exec T (T f).body (bindArgs vals) h (.ok e' h') → Returns h vals ((T f).resultOf e') h' s

end M4rie.Res

namespace M4rie.Res

/-! ## Sessions: a caller and its ledger -/

/-- what the caller writes into its ledger after a call that returned `v` -/
def ledgerAfter (g : Heap) (s : Sig) (v : Val) : Heap := match s.gives, v with
  | .fresh k, .ptr n => g.set n (some ⟨k, none⟩)
  | _, _ => g

/-- A session of a caller with the library.  The caller creates objects, cuts windows, releases what its ledger `g` says it may release, and
calls routines in the announced ways `ways` with arguments that are in its ledger.  The caller knows only the ledger `g`; `h` is what is
really on the heap. -/
inductive Session {F : Type} (T : F → Fn F) (ways : F → List Sig) : Heap → Heap → Prop
  | start : Session T ways (fun _ => none) (fun _ => none)
  | new {h g n k} : Session T ways h g → h n = none → Session T ways (h.set n (some ⟨k, none⟩)) (g.set n (some ⟨k, none⟩))
  | window {h g m n k} : Session T ways h g → g m ≠ none → h n = none → Session T ways (h.set n (some ⟨k, some m⟩)) (g.set n (some ⟨k, some m⟩))
  | free {h g n k} : Session T ways h g → Freeable g (.ptr n) k → Session T ways (h.set n none) (g.set n none)
  | call {h g f s vals e' h'} : Session T ways h g → s ∈ ways f → ArgsOk g (T f).params s.nulls vals →
      Exec T (T f).body (bindArgs vals) h (.ok e' h') → Session T ways h' (ledgerAfter g s ((T f).resultOf e'))

end M4rie.Res
