import Verif.Model.MzedMat
import Mathlib.Data.Set.Basic

/-!
# Specification: threads that interleave at every single word access

`Verif.Spec.Schedule` lets threads interleave call by call.  Here a call is a sequence of reads and writes of single words and the threads interleave
between any two of them: a *schedule* is a list of thread numbers, at every entry that thread makes its next access.

(For programs without data races - and the theorems are about those - the C11 memory model promises exactly the behaviours of such interleavings.)
-/

namespace M4rie.Spec
open M4rie

/-- the place of a word in memory: which allocation, which row, which word of the row -/
structure Loc where
  buf : Nat
  row : Nat
  word : Nat
  deriving DecidableEq

/-- the memory shared by all threads -/
abbrev Mem := Loc → Word

/-- a piece of code that is going to return `α`: it is finished, or it reads a word and goes on depending on it, or it writes a word and goes on -/
inductive Code (α : Type) where
  | done (a : α)
  | read (l : Loc) (k : Word → Code α)
  | write (l : Loc) (v : Word) (k : Code α)

/-- memory after one write -/
def Mem.set (m : Mem) (l : Loc) (v : Word) : Mem := fun x => if x = l then v else m x

namespace Code
variable {α β : Type}

/-- one piece of code after the other -/
def andThen : Code α → (α → Code β) → Code β
  | done a, f => f a
  | read l k, f => read l fun v => (k v).andThen f
  | write l v k, f => write l v (k.andThen f)

/-- running alone: result and memory afterwards -/
def alone : Code α → Mem → α × Mem
  | done a, m => (a, m)
  | read l k, m => (k (m l)).alone m
  | write l v k, m => k.alone (m.set l v)

/-- the number of accesses it makes when running alone -/
def accesses : Code α → Mem → Nat
  | done _, _ => 0
  | read l k, m => (k (m l)).accesses m + 1
  | write l v k, m => k.accesses (m.set l v) + 1

/-- one access (a finished piece of code makes none) -/
def move : Code α → Mem → Code α × Mem
  | done a, m => (done a, m)
  | read l k, m => (k (m l), m)
  | write l v k, m => (k, m.set l v)

/-- whatever it reads, it reads only words of `R` and writes only words of `W` -/
def Keeps (R W : Set Loc) : Code α → Prop
  | done _ => True
  | read l k => l ∈ R ∧ ∀ v, (k v).Keeps R W
  | write l _ k => l ∈ W ∧ k.Keeps R W

end Code

/-- the threads `p` run under a schedule -/
def interleave {ι : Type} [DecidableEq ι] {α : Type} : List ι → (ι → Code α) → Mem → (ι → Code α) × Mem
  | [], p, m => (p, m)
  | t :: ts, p, m => interleave ts (fun u => if u = t then ((p t).move m).1 else p u) ((p t).move m).2

end M4rie.Spec
