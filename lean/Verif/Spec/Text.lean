import Mathlib.Data.List.Basic
import Mathlib.Data.List.OfFn

/-!
# Specification: reading a printed matrix

`readText` is a reader for matrices printed as rows of hexadecimal numbers in brackets.
-/

namespace M4rie.Spec

def hexVal (c : Char) : Option Nat :=
  if '0' ≤ c ∧ c ≤ '9' then some (c.toNat - '0'.toNat) else if 'a' ≤ c ∧ c ≤ 'f' then some (c.toNat - 'a'.toNat + 10) else none

/-- the rows read so far, the entries of the row being read, the number being read -/
structure Reader where
  rows : List (List Nat)
  row : List Nat
  num : Option Nat

/-- the number being read is complete -/
def Reader.flush (s : Reader) : Reader := match s.num with
  | some x => { s with row := s.row ++ [x], num := none }
  | none => s

def Reader.step (s : Reader) (c : Char) : Reader :=
  match hexVal c with
  | some d => { s with num := some (16 * s.num.getD 0 + d) }
  | none => if c = ']' then { s.flush with rows := s.rows ++ [s.flush.row], row := [] } else s.flush

/-- the matrix in a text -/
def readText (t : List Char) : List (List Nat) := (t.foldl Reader.step ⟨[], [], none⟩).rows

example : readText "[ 1 1f  a]\n[ 0  2  3]\n".toList = [[1, 31, 10], [0, 2, 3]] := by decide

end M4rie.Spec
