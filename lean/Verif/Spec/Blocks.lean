/-!
# Memory blocks

Memory as `malloc` sees it: blocks at addresses, a block is a list of cells (one cell for each member of a structure or element of an
array).  Address 0 is `NULL`.  Reading a cell that was never written, reading or writing outside a block, releasing something that is not the
address of a block: `fault`.  Failure of the allocator ends the program: `dead` (`m4ri_die` in M4RI's `m4ri_mm_malloc`, `m4ri_mm_calloc`).
-/
namespace M4rie.Mem

/-- a cell: never written, or a number (a pointer is the number of its address) -/
inductive Cell | junk | val (n : Nat)
deriving DecidableEq, Repr

abbrev Mem := Nat → Option (List Cell)

def Mem.empty : Mem := fun _ => none

def Mem.put (m : Mem) (a : Nat) (b : Option (List Cell)) : Mem := fun x => if x = a then b else m x

/-- the memory without the blocks at the addresses `l` -/
def Mem.without (m : Mem) (l : List Nat) : Mem := fun x => if x ∈ l then none else m x

inductive Out (α : Type) | ok (a : α) (m : Mem) | dead | fault

abbrev M (α : Type) := Mem → Out α

instance : Monad M where
  pure a := fun m => .ok a m
  bind x f := fun m => match x m with | .ok a m' => f a m' | .dead => .dead | .fault => .fault

/-- an allocator: any function that only gives out unused addresses other than `NULL`, or fails -/
structure Alloc where
  pick : Mem → Nat → Option Nat
  fresh : ∀ m n a, pick m n = some a → m a = none ∧ a ≠ 0

variable (A : Alloc)

/-- `m4ri_mm_malloc`, for `n` cells -/
def malloc (n : Nat) : M Nat := fun m => match A.pick m n with
  | some a => .ok a (m.put a (some (List.replicate n .junk)))
  | none => .dead

/-- `m4ri_mm_calloc` -/
def calloc (n : Nat) : M Nat := fun m => match A.pick m n with
  | some a => .ok a (m.put a (some (List.replicate n (.val 0))))
  | none => .dead

/-- `m4ri_mm_free`, `free`: nothing happens for `NULL` -/
def free (a : Nat) : M Unit := fun m => if a = 0 then .ok () m else if (m a).isSome then .ok () (m.put a none) else .fault

/-- read cell `i` of the block at `a` -/
def load (a i : Nat) : M Nat := fun m => match m a with
  | some b => (match b[i]? with | some (.val n) => .ok n m | _ => .fault)
  | none => .fault

/-- write cell `i` of the block at `a` -/
def store (a i v : Nat) : M Unit := fun m => match m a with
  | some b => if i < b.length then .ok () (m.put a (some (b.set i (.val v)))) else .fault
  | none => .fault

/-- `for (i = 0; i < n; i++) f(i)` -/
def loop : Nat → (Nat → M Unit) → M Unit
  | 0, _ => pure ()
  | n + 1, f => do loop n f; f n

/-- an execution that cannot fault -/
def NoFault {α : Type} (x : M α) (m : Mem) : Prop := x m ≠ .fault

end M4rie.Mem

namespace M4rie.Mem

/-! ## What memory an object consists of

`l` lists the addresses of all blocks of the object, each once. -/

/-- cell `i` of the block at `a` contains `v` -/
def Has (m : Mem) (a i v : Nat) : Prop := ∃ b, m a = some b ∧ b[i]? = some (.val v)

/-- the block at `a` has `n` cells -/
def Size (m : Mem) (a n : Nat) : Prop := ∃ b, m a = some b ∧ b.length = n

/-- `l` are different addresses of blocks -/
def Blocks (m : Mem) (l : List Nat) : Prop := l.Nodup ∧ ∀ b ∈ l, b ≠ 0 ∧ m b ≠ none

/-- a field of degree `e` (`gf2e`): the structure, `pow_gen`, `red` and, up to degree 8, `_mul` with `2^e` rows of length `2^e` -/
def FieldAt (m : Mem) (a e : Nat) (l : List Nat) : Prop := Blocks m l ∧ Size m a 5 ∧ Has m a 0 e ∧
  ∃ pow red, Has m a 2 pow ∧ Has m a 3 red ∧ Size m pow (2 * e - 1) ∧ Size m red (2 ^ e) ∧
    ((e ≤ 8 ∧ ∃ mul rows, Has m a 4 mul ∧ Size m mul (2 ^ e) ∧ rows.length = 2 ^ e ∧
        (∀ i r, rows[i]? = some r → Has m mul i r ∧ Size m r (2 ^ e)) ∧ (a :: pow :: red :: mul :: rows).Perm l) ∨
      (8 < e ∧ Has m a 4 0 ∧ [a, pow, red].Perm l))

/-- a packed matrix (`mzed_t`) over the field at `k`: the structure and the matrix of M4RI -/
def MzedAt (m : Mem) (a k : Nat) (l : List Nat) : Prop := Blocks m l ∧ Size m a 5 ∧ Has m a 1 k ∧ ∃ x, Has m a 0 x ∧ [a, x].Perm l

/-- a sliced matrix (`mzd_slice_t`) over the field at `k` with `d` slices -/
def SliceAt (m : Mem) (a k d : Nat) (l : List Nat) : Prop := Blocks m l ∧ Size m a 20 ∧ Has m a 18 d ∧ Has m a 19 k ∧ d ≤ 16 ∧
  ∃ xs, xs.length = d ∧ (∀ i x, xs[i]? = some x → Has m a i x ∧ Size m x 1) ∧ (a :: xs).Perm l

/-- a Newton-John table over the field at `k`: the structure, the array `L`, two packed matrices -/
def NjtAt (m : Mem) (a k : Nat) (l : List Nat) : Prop := Blocks m l ∧ Size m a 3 ∧
  ∃ t x y l1 l2, Has m a 0 t ∧ Has m a 1 y ∧ Has m a 2 x ∧ MzedAt m x k l1 ∧ MzedAt m y k l2 ∧ (a :: t :: (l1 ++ l2)).Perm l

/-- a polynomial with `d` coefficients and room for `c` of them -/
def PolyAt (m : Mem) (a d c : Nat) (l : List Nat) : Prop := Blocks m l ∧ Size m a 4 ∧ Has m a 3 d ∧ d ≤ c ∧
  ∃ x xs, Has m a 0 x ∧ Size m x c ∧ xs.length = d ∧ (∀ i y, xs[i]? = some y → Has m x i y ∧ Size m y 1) ∧ (a :: x :: xs).Perm l

/-- a bilinear map with compiled programs; the programs for `F` and `G` may be the same -/
def BlmAt (m : Mem) (a : Nat) (l : List Nat) : Prop := Blocks m l ∧ Size m a 6 ∧
  ∃ H h F f G g, Has m a 0 H ∧ Has m a 1 h ∧ Has m a 2 F ∧ Has m a 3 f ∧ Has m a 4 G ∧ Has m a 5 g ∧
    ((f = g ∧ [a, H, h, F, f, G].Perm l) ∨ (f ≠ g ∧ [a, H, h, F, f, G, g].Perm l))

/-- `m'` is `m` with the new blocks `l` -/
def Extends (m : Mem) (l : List Nat) (m' : Mem) : Prop := (∀ b ∈ l, m b = none) ∧ ∀ b, b ∉ l → m' b = m b

/-- a constructor: it never faults, and if it returns, its result is an object made of new blocks; nothing else has changed -/
def Makes (x : M Nat) (m : Mem) (At : Mem → Nat → List Nat → Prop) : Prop :=
  x m ≠ .fault ∧ ∀ a m', x m = .ok a m' → a ≠ 0 ∧ ∃ l, At m' a l ∧ Extends m l m'

end M4rie.Mem

namespace M4rie.Mem

/-- an object that consisted of the blocks `l` now consists of `l'`, nothing else has changed -/
structure Changes (m : Mem) (l l' : List Nat) (m' : Mem) : Prop where
  old : ∀ b ∈ l', b ∉ l → m b = none
  gone : ∀ b ∈ l, b ∉ l' → m' b = none
  other : ∀ b, b ∉ l → b ∉ l' → m' b = m b

/-! ## What a program knows about its objects -/

/-- the kind of an object and what it depends on: the degree, the address of the field, the depth, the capacity -/
inductive Desc | field (e : Nat) | mzed (k : Nat) | slice (k d : Nat) | njt (k : Nat) | poly (d c : Nat) | blm
deriving DecidableEq, Repr

/-- at `a` there is such an object, made of the blocks `l` -/
def Desc.At (m : Mem) (a : Nat) (l : List Nat) : Desc → Prop
  | .field e => FieldAt m a e l
  | .mzed k => MzedAt m a k l
  | .slice k d => SliceAt m a k d l
  | .njt k => NjtAt m a k l
  | .poly d c => PolyAt m a d c l
  | .blm => BlmAt m a l

/-- what a program may call: the constructors, the destructor for the kind of the object, `_adapt_depth`, the application of a bilinear map
with `n` products, the product of polynomials with an array of `d` slices -/
inductive Call
  | field (minpoly : BitVec 64)
  | mzed (k r c : Nat) | mzedWindow (s r c : Nat)
  | slice (k r c : Nat) | sliceWindow (s r c : Nat)
  | njt (k c : Nat) | poly (d r c : Nat) | blm (same : Bool)
  | free (a : Nat) | depth (a n : Nat) | apply (n : Nat) | ext1 (k d : Nat)

/-- the objects of the program: addresses and kinds -/
abbrev Objs := List (Nat × Desc)

/-- the rules the program has to follow: it may use what it was given and has not released; the field of an operand is still there; depths
stay within the capacity -/
def Legal (h : Objs) : Call → Prop
  | .field p => 2 ≤ p.toNat ∧ p.toNat < 2 ^ 17
  | .mzed k _ _ => ∃ e, (k, .field e) ∈ h
  | .mzedWindow s _ _ => ∃ k e, (s, .mzed k) ∈ h ∧ (k, .field e) ∈ h
  | .slice k _ _ => ∃ e, (k, .field e) ∈ h ∧ e ≤ 16
  | .sliceWindow s _ _ => ∃ k d, (s, .slice k d) ∈ h
  | .njt k _ => ∃ e, (k, .field e) ∈ h
  | .poly _ _ _ => True
  | .blm _ => True
  | .free a => ∃ D, (a, D) ∈ h
  | .depth a n => (∃ k d, (a, .slice k d) ∈ h ∧ n ≤ 16) ∨ ∃ d c, (a, .poly d c) ∈ h ∧ n ≤ c
  | .apply _ => True
  | .ext1 k d => (∃ e, (k, .field e) ∈ h ∧ e ≤ 16) ∧ 2 ≤ d

end M4rie.Mem
