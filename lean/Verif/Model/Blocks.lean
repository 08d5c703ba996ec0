import Verif.Spec.Blocks
import Verif.Model.Gf2e
/-!
# Constructors and destructors, block by block

What the `_init` and `_free` functions do with memory.  A structure is a block with one cell for each member; the cells are numbered in the
comments.  Objects of M4RI (`mzd_t`, `djb_t`) are single opaque blocks: `mzd_init`, `mzd_init_window`, `djb_compile` create one,
`mzd_free`, `mzd_free_window`, `djb_free` release one and, unlike `free`, do not accept `NULL`.  Contents that are not pointers are not
modelled, except the degree of a field, the depths and the bounds of the tables filled in `gf2e_init`.
-/
namespace M4rie.Mem

variable (A : Alloc)

/-- `mzd_init`, `djb_compile` (M4RI, by contract) -/
def mzdInit : M Nat := calloc A 1

/-- `mzd_init_window` (M4RI, by contract): reads the matrix it is a window of -/
def mzdInitWindow (y : Nat) : M Nat := fun m => if (m y).isSome then calloc A 1 m else .fault

/-- `mzd_free`, `mzd_free_window`, `djb_free` (M4RI, by contract) -/
def mzdFree (a : Nat) : M Unit := fun m => if (m a).isSome then .ok () (m.put a none) else .fault

/-- the index written in round `i` of the loop over `red` (gf2e.c:17-24) -/
def redSlot (minpoly : Word) (degree i : Nat) : Nat := (redTmp minpoly (BitVec.ofNat 64 i) degree >>> degree).toNat

/-- gf2e.c:4-56; cells: 0 degree, 1 minpoly, 2 pow_gen, 3 red, 4 _mul.  For degree 0 the size of `pow_gen` is -1 words, which no allocator
provides. -/
def gf2eInit (minpoly : Word) : M Nat := do
  let ff ← calloc A 5
  let degree := initDegree minpoly
  store ff 0 degree
  store ff 1 minpoly.toNat
  let order := 2 ^ degree
  let red ← calloc A order
  store ff 3 red
  loop (order - 1) fun i => store red (redSlot minpoly degree (i + 1)) 1
  if degree = 0 then fun _ => .dead else do
  let pow ← malloc A (2 * degree - 1)
  store ff 2 pow
  loop (2 * degree - 1) fun i => store pow i 1
  if degree ≤ 8 then do
    let mul ← calloc A order
    store ff 4 mul
    let row ← calloc A order
    store mul 0 row
    loop (order - 1) fun i => do
      let row ← calloc A order
      store mul (i + 1) row
      loop (order - 1) fun j => store row (j + 1) 1
    pure ff
  else pure ff

/-- gf2e.c:56-66 `gf2e_free` -/
def gf2eFree (ff : Nat) : M Unit := do
  let mul ← load ff 4
  if mul ≠ 0 then do
    let degree ← load ff 0
    loop (2 ^ degree) fun i => do
      let mul ← load ff 4
      let row ← load mul i
      free row
    let mul ← load ff 4
    free mul
  else pure ()
  let pow ← load ff 2
  free pow
  let red ← load ff 3
  free red
  free ff

/-- mzed.c:28-37; cells: 0 x, 1 finite_field, 2 nrows, 3 ncols, 4 w -/
def mzedInit (ff r c : Nat) : M Nat := do
  let a ← malloc A 5
  store a 1 ff
  let k ← load a 1
  let _ ← load k 0
  store a 4 1
  store a 2 r
  store a 3 c
  let x ← mzdInit A
  store a 0 x
  pure a

/-- mzed.h:187-195 -/
def mzedInitWindow (s r c : Nat) : M Nat := do
  let b ← malloc A 5
  let ff ← load s 1
  store b 1 ff
  let k ← load s 1
  let _ ← load k 0
  store b 4 1
  store b 2 r
  store b 3 c
  let y ← load s 0
  let _ ← load b 4
  let x ← mzdInitWindow A y
  store b 0 x
  pure b

/-- mzed.c:39-42 `mzed_free`, mzed.h:205-208 `mzed_free_window` -/
def mzedFree (a : Nat) : M Unit := do
  let x ← load a 0
  mzdFree x
  free a

/-- mzd_slice.h:78-89 (`depth = ff->degree`); cells: 0..15 x, 16 nrows, 17 ncols, 18 depth, 19 finite_field -/
def sliceInit (ff r c : Nat) : M Nat := do
  let a ← malloc A 20
  store a 19 ff
  store a 16 r
  store a 17 c
  let d ← load ff 0
  store a 18 d
  let depth ← load a 18
  loop depth fun i => do
    let x ← mzdInit A
    store a i x
  pure a

/-- mzd_slice.h:480-492 -/
def sliceInitWindow (s r c : Nat) : M Nat := do
  let b ← malloc A 20
  let ff ← load s 19
  store b 19 ff
  let d ← load s 18
  store b 18 d
  store b 16 r
  store b 17 c
  loop d fun i => do
    let y ← load s i
    let x ← mzdInitWindow A y
    store b i x
  pure b

/-- mzd_slice.h:145-153 `mzd_slice_free`, mzd_slice.h:502-507 `mzd_slice_free_window` -/
def sliceFree (a : Nat) : M Unit := do
  let d ← load a 18
  loop d fun i => do
    let x ← load a i
    mzdFree x
  free a

/-- mzd_slice.h:119-134 (the assertion `degree <= new_depth` is dropped) -/
def sliceAdaptDepth (a newDepth : Nat) : M Unit := do
  let d ← load a 18
  if newDepth < d then
    loop (d - newDepth) fun i => do
      let x ← load a (newDepth + i)
      mzdFree x
      store a (newDepth + i) 0
  else
    loop (newDepth - d) fun i => do
      let x ← mzdInit A
      store a (d + i) x
  store a 18 newDepth

/-- newton_john.c:32-38; cells: 0 L, 1 M, 2 T -/
def njtInit (ff c : Nat) : M Nat := do
  let t ← malloc A 3
  let d ← load ff 0
  let l ← calloc A (2 ^ d)
  store t 0 l
  let x ← mzedInit A ff (2 ^ d) c
  store t 2 x
  let y ← mzedInit A ff d c
  store t 1 y
  pure t

/-- newton_john.c:40-45 `njt_mzed_free` -/
def njtFree (t : Nat) : M Unit := do
  let y ← load t 1
  mzedFree y
  let x ← load t 2
  mzedFree x
  let l ← load t 0
  free l
  free t

/-- mzd_poly.h:90-101; cells: 0 x, 1 nrows, 2 ncols, 3 depth -/
def polyInit (d r c : Nat) : M Nat := do
  let a ← malloc A 4
  let x ← malloc A (d + 1)
  store a 0 x
  store a 1 r
  store a 2 c
  store a 3 (d + 1)
  let depth ← load a 3
  loop depth fun i => do
    let y ← mzdInit A
    let x ← load a 0
    store x i y
  pure a

/-- mzd_poly.h:111-116 `mzd_poly_free` -/
def polyFree (a : Nat) : M Unit := do
  let d ← load a 3
  loop d fun i => do
    let x ← load a 0
    let y ← load x i
    mzdFree y
  let x ← load a 0
  free x
  free a

/-- mzd_poly.h:127-140 -/
def polyAdaptDepth (a newDepth : Nat) : M Unit := do
  let d ← load a 3
  if newDepth < d then
    loop (d - newDepth) fun i => do
      let x ← load a 0
      let y ← load x (newDepth + i)
      mzdFree y
      let x ← load a 0
      store x (newDepth + i) 0
  else
    loop (newDepth - d) fun i => do
      let y ← mzdInit A
      let x ← load a 0
      store x (d + i) y
  store a 3 newDepth

/-- the parts of blm.c:487-608 and 43-63 that store pointers in the new map; `same`: the outcome of `mzd_equal(f->F, f->G)`; cells: 0 H, 1 h,
2 F, 3 f, 4 G, 5 g.  (What happens in between leaves nothing but leaks behind: C61.) -/
def blmInit (djb same : Bool) : M Nat := do
  let f ← malloc A 6
  let x ← mzdInit A
  store f 2 x
  store f 3 0
  let x ← mzdInit A
  store f 4 x
  store f 5 0
  let x ← mzdInit A
  store f 0 x
  store f 1 0
  if djb then do
    let x ← mzdInit A
    store f 3 x
    if same then do
      let x ← load f 3
      store f 5 x
    else do
      let x ← mzdInit A
      store f 5 x
    let x ← mzdInit A
    store f 1 x
    pure f
  else pure f

/-- blm.c:611-621 `blm_free` -/
def blmFree (f : Nat) : M Unit := do
  let x ← load f 2
  mzdFree x
  let x ← load f 4
  mzdFree x
  let x ← load f 0
  mzdFree x
  let p ← load f 3
  let q ← load f 5
  if p ≠ q then do
    let q ← load f 5
    mzdFree q
  else pure ()
  let p ← load f 3
  mzdFree p
  let x ← load f 1
  mzdFree x
  free f

/-- blm.c:65-101: the three arrays of `n = f->F->nrows` matrices -/
def applyBlmDjb (n : Nat) : M Unit := do
  let t0 ← malloc A n
  let t1 ← malloc A n
  let t2 ← malloc A n
  loop n fun i => do
    let x ← mzdInit A
    store t1 i x
    let x ← mzdInit A
    store t2 i x
  loop n fun i => do
    let x ← mzdInit A
    store t0 i x
    let x ← load t1 i
    mzdFree x
    let x ← load t2 i
    mzdFree x
  loop n fun i => do
    let x ← load t0 i
    mzdFree x
  free t0
  free t1
  free t2

/-- mzd_poly.c:12-79: the array `c` of `d` slices over the field `ff` (`mzd_slice_mul(NULL, ..)` creates one: C61) -/
def ext1Array (ff d : Nat) : M Unit := do
  let c ← calloc A d
  let x ← sliceInit A ff 1 1
  store c 0 x
  let x ← sliceInit A ff 1 1
  store c 1 x
  loop (d - 2) fun i => do
    let x ← sliceInit A ff 1 1
    store c (i + 2) x
  loop d fun i => do
    let x ← load c i
    sliceFree x
  free c

/-! ## Calls of a program

Not a function of the library: a program that keeps a list of its objects, with their kinds, and calls the functions above. -/

/-- the destructor for an object: gf2e.c:58, mzed.c:39, mzd_slice.h:144, newton_john.c:40, mzd_poly.h:111, blm.c:611 -/
def destroy (a : Nat) : Desc → M Unit
  | .field _ => gf2eFree a
  | .mzed _ => mzedFree a
  | .slice _ _ => sliceFree a
  | .njt _ => njtFree a
  | .poly _ _ => polyFree a
  | .blm => blmFree a

/-- the kind of the first object known at address `a` -/
def kindAt (h : Objs) (a : Nat) : Option Desc := (h.find? (fun p => p.1 = a)).map (·.2)

/-- a call (see the functions above) and the list of objects afterwards -/
def step (h : Objs) : Call → M Objs
  | .field p => do let a ← gf2eInit A p; pure ((a, .field p.toNat.log2) :: h)
  | .mzed k r c => do let a ← mzedInit A k r c; pure ((a, .mzed k) :: h)
  | .mzedWindow s r c => match kindAt h s with
    | some (.mzed k) => do let a ← mzedInitWindow A s r c; pure ((a, .mzed k) :: h)
    | _ => fun _ => .fault
  | .slice k r c => match kindAt h k with
    | some (.field e) => do let a ← sliceInit A k r c; pure ((a, .slice k e) :: h)
    | _ => fun _ => .fault
  | .sliceWindow s r c => match kindAt h s with
    | some (.slice k d) => do let a ← sliceInitWindow A s r c; pure ((a, .slice k d) :: h)
    | _ => fun _ => .fault
  | .njt k c => do let a ← njtInit A k c; pure ((a, .njt k) :: h)
  | .poly d r c => do let a ← polyInit A d r c; pure ((a, .poly (d + 1) (d + 1)) :: h)
  | .blm same => do let a ← blmInit A true same; pure ((a, .blm) :: h)
  | .free a => match kindAt h a with
    | some D => do destroy a D; pure (h.erase (a, D))
    | none => fun _ => .fault
  | .depth a n => match kindAt h a with
    | some (.slice k d) => do sliceAdaptDepth A a n; pure ((a, .slice k n) :: h.erase (a, .slice k d))
    | some (.poly d c) => do polyAdaptDepth A a n; pure ((a, .poly n c) :: h.erase (a, .poly d c))
    | _ => fun _ => .fault
  | .apply n => do applyBlmDjb A n; pure h
  | .ext1 k d => do ext1Array A k d; pure h

/-- the states a program that follows the rules can reach, starting without objects in the memory `m0` -/
inductive Reach (m0 : Mem) : Objs → Mem → Prop
  | start : Reach m0 [] m0
  | call {h m c h' m'} : Reach m0 h m → Legal h c → step A h c m = .ok h' m' → Reach m0 h' m'

end M4rie.Mem
