import Verif.Model.CheckedBlm
import Verif.Model.PolyHistory

/-!
# Finite field objects, CRT schemes and matrices over GF(2)[x] with every access checked: gf2e.c, blm.c, mzd_poly.h, mzd_poly.c

Continues `Checked.lean` and `CheckedBlm.lean`: every subscript of a table or of an array of coefficients is checked, as are the shift counts (`1<<i` is
an `int`), the `int` computations of degrees and costs, M4RI's demands on dimensions, and the assertions.
-/

namespace M4rie.Chk
open M4rie.Spec

/-! ### gf2e_init -/

/-- `1<<i`: an `int`, so `i < 31` -/
def shlInt (i : Nat) : Option Word := (need (i < 31)).bind fun _ => some (twoPow i)

/-- gf2e.c:7-9. -/
def initDegree (minpoly : Word) : Option Nat :=
  forC (fun i d => (shlInt i).bind fun p => some (if p &&& minpoly ≠ 0#64 then i else d)) (maxDegree + 1) 0

/-- gf2e.c:18-21. -/
def redTmp (minpoly i : Word) (degree : Nat) : Option Word :=
  forC (fun j tmp => (shl 1#64 j).bind fun p => if p &&& i ≠ 0#64 then (shl minpoly j).bind fun s => some (tmp ^^^ s) else some tmp) degree 0#64

/-- gf2e.c:17-24: `red` has `2^degree` entries. -/
def initRed (dbg : Bool) (minpoly : Word) (degree : Nat) : Option (Nat → Word) :=
  forC (fun k red => (redTmp minpoly (BitVec.ofNat 64 (k + 1)) degree).bind fun tmp => (shr tmp degree).bind fun q =>
    (need (q.toNat < 2 ^ degree)).bind fun _ => (assert? dbg (red q.toNat = 0#64)).bind fun _ => some (setWord red q.toNat tmp))
    (2 ^ degree - 1) fun _ => 0#64

/-- gf2e.c:31-34: `n + 1` iterations left means `j = degree + n`; `pg` is `pow_gen[i]`. -/
def powGenLoop (minpoly : Word) (degree : Nat) : Nat → Word → Option Word
  | 0, pg => some pg
  | n + 1, pg => (shlInt (degree + n)).bind fun p =>
    (if pg &&& p ≠ 0#64 then (shl minpoly n).bind fun s => some (pg ^^^ s) else some pg).bind fun pg => powGenLoop minpoly degree n pg

/-- gf2e.c:27-35: `n` may not be negative; `pow_gen` has `n` entries. -/
def initPowGen (minpoly : Word) (degree : Nat) (pg0 : Nat → Word) : Option (Nat → Word) :=
  (need (1 ≤ 2 * degree)).bind fun _ =>
  forC (fun i pg => (need (i < 2 * degree - 1)).bind fun _ => (shlInt i).bind fun p => (powGenLoop minpoly degree (i + 1 - degree) p).bind fun v =>
    some (setWord pg i v)) (2 * degree - 1) pg0

/-- gf2e.c:41-47: rows and columns from 1 on, the others are left as `calloc` returns them. -/
def initMulTab (degree : Nat) (red : Nat → Word) (mt0 : Nat → Nat → Word) : Option (Nat → Nat → Word) :=
  forC (fun i t => forC (fun j (t : Nat → Nat → Word) => (mul (BitVec.ofNat 64 (i + 1)) (BitVec.ofNat 64 (j + 1)) degree).bind fun res =>
    (shr res degree).bind fun q => (need (q.toNat < 2 ^ degree ∧ i + 1 < 2 ^ degree ∧ j + 1 < 2 ^ degree)).bind fun _ =>
    some fun a b => if a = i + 1 ∧ b = j + 1 then res ^^^ red q.toNat else t a b) (2 ^ degree - 1) t) (2 ^ degree - 1)
    fun a b => if a < 2 ^ degree ∧ b < 2 ^ degree then 0#64 else mt0 a b

/-- gf2e.c:4-54 `gf2e_init(minpoly)`.  `pg0` is what the memory of `pow_gen` and behind it holds, `mt0` what lies behind the rows of `_mul`. -/
def gf2eInit (dbg : Bool) (pg0 : Nat → Word) (mt0 : Nat → Nat → Word) (minpoly : Word) : Option Gf2e :=
  (initDegree minpoly).bind fun degree => (initRed dbg minpoly degree).bind fun red => (initPowGen minpoly degree pg0).bind fun pg =>
  if degree ≤ 8 then (initMulTab degree red mt0).map fun t => ⟨degree, minpoly, pg, red, some t⟩ else some ⟨degree, minpoly, pg, red, none⟩

/-! ### crt_init -/

/-- blm.c:121-131: `p` and `irreducible_polynomials` have 17 entries. -/
def crtLoop (degNeed : Int) : Nat → Nat → Nat → (Nat → Nat) → Option ((Nat → Nat) × Nat)
  | fuel, have_, degPoly, p =>
    if ¬ ((have_ : Int) < degNeed) then some (p, have_) else
    match fuel with
    | 0 => none
    | fuel + 1 =>
      (need (degPoly < 17)).bind fun _ => (int? (degPoly * irredCount degPoly)).bind fun x => (int? (have_ + x)).bind fun have1 =>
      if (have1 : Int) < degNeed then crtLoop degNeed fuel have1 (degPoly + 1) (setP p degPoly (irredCount degPoly))
      else
        (int? (degNeed - have_).toNat).bind fun diff => (need (0 < degPoly)).bind fun _ => (int? (degPoly * ((diff + degPoly - 1) / degPoly))).bind fun y =>
        (int? (have_ + y)).bind fun have1 => crtLoop degNeed fuel have1 (degPoly + 1) (setP p degPoly ((diff + degPoly - 1) / degPoly))

/-- blm.c:139-141, blm.h:72-77: `costs[p[0]] + costs[1]*p[1] + ..`, all `int`. -/
def costCrt (p : Nat → Nat) : Option Nat :=
  (cost (p 0)).bind fun c => forC (fun d c => (cost (d + 1)).bind fun k => (int? (k * p (d + 1))).bind fun x => int? (c + x)) 16 c

/-- blm.c:113-142. -/
def crtCandidate (fLen gLen omega : Nat) : Option ((Nat → Nat) × Nat) :=
  (int? (fLen + gLen)).bind fun _ =>
  let degNeed : Int := fLen + gLen - 1 - omega
  (crtLoop degNeed 17 0 1 (fun d => if d = 0 then omega else 0)).bind fun r =>
  let diff := (r.2 - degNeed).toNat
  (need (diff < 17)).bind fun _ =>
  let p := if diff ≠ 0 ∧ 0 < r.1 diff then setP r.1 diff (r.1 diff - 1) else r.1
  (costCrt p).map fun c => (p, c)

/-- blm.c:106-151 `crt_init(f_len,g_len)`. -/
def crtInit (fLen gLen : Nat) : Option (Nat → Nat) :=
  (int? (fLen * gLen)).bind fun c0 =>
  (forC (fun omega (s : (Nat → Nat) × Nat) => (crtCandidate fLen gLen omega).bind fun r => some (if r.2 < s.2 then (r.1, r.2) else s)) 8 (fun _ => 0, c0)).map (·.1)

/-! ### matrices of polynomials -/

/-- the member `x` of an `mzd_poly_t` (mzd_poly.h:40-45): `depth` pointers to matrices -/
def parr (A : MzdPoly) : Arr := ⟨A.depth, A.nrows, A.ncols, A.x⟩

/-- mzd_poly.h:90-101 `mzd_poly_init(d,m,n)`. -/
def polyInit (d m n : Nat) : Option MzdPoly := (int? (d + 1)).bind fun _ => some (mzdPolyInit d m n)

/-- mzd_poly.h:127-140 `_mzd_poly_adapt_depth(A,new_depth)`: `x` has room for `cap` pointers. -/
def polyAdaptDepth (A : MzdPoly) (newDepth : Nat) : Option MzdPoly :=
  if newDepth < A.depth then
    (forC (fun i (_ : Unit) => (need (newDepth + i < A.depth ∧ newDepth + i < A.cap))) (A.depth - newDepth) ()).bind fun _ => some { A with depth := newDepth }
  else (forC (fun i (B : MzdPoly) => (need (A.depth + i < B.cap)).bind fun _ => some { B with x := setSlice B.x (A.depth + i) zeroW }) (newDepth - A.depth) A).bind
    fun B => some { B with depth := newDepth }

/-- M4RI `mzd_write_bit(A->x[t],i,j,v)` -/
def polyWriteBit (A : MzdPoly) (t i j : Nat) (v : Bool) : Option MzdPoly :=
  ((parr A).get t).bind fun p => (mWrite ⟨p.nr, p.nc, p.w⟩ i j v).bind fun M => ((parr A).put t ⟨M.nrows, M.ncols, M.w⟩).bind fun X => some { A with x := X.x }

/-- M4RI `mzd_read_bit(A->x[t],i,j)` -/
def polyReadBit (A : MzdPoly) (t i j : Nat) : Option Bool := ((parr A).get t).bind fun p => mRead ⟨p.nr, p.nc, p.w⟩ i j

/-- mzd_poly.h:275-278 `mzd_poly_randomize(A)`; M4RI `mzd_randomize` on every coefficient -/
def polyRandomize (A : MzdPoly) (r : Nat → Nat → Nat → Bool) : Option MzdPoly :=
  (forC (fun t X => (X.get t).bind fun p => X.put t ⟨p.nr, p.nc, mzdRandomize p.nr p.nc p.w (r t)⟩) A.depth (parr A)).map fun X => { A with x := X.x }

/-- mzd_poly.h:60-63 `_mzd_poly_add(C,A,B,offset)`, mzd_ptr.h:83-123. -/
def polyAddLoop (c : PolyPool) (d a b offset : Nat) : Option PolyPool :=
  (c a).bind fun A0 => forC (fun i c =>
    (c d).bind fun C => (c a).bind fun A => (c b).bind fun B =>
    ((parr C).get (offset + ptrAddOrder A0.depth i)).bind fun x => ((parr A).get (ptrAddOrder A0.depth i)).bind fun y =>
    ((parr B).get (ptrAddOrder A0.depth i)).bind fun z => (padd x y z).bind fun x => ((parr C).put (offset + ptrAddOrder A0.depth i) x).bind fun X =>
    some (c.set d (some { C with x := X.x }))) A0.depth c

/-- mzd_poly.h:75-78 `mzd_poly_add(C,A,B)`. -/
def polyAdd (dbg : Bool) (c : PolyPool) (d a b : Nat) : Option PolyPool :=
  (c d).bind fun C => (c a).bind fun A => (c b).bind fun B =>
  (assert? dbg (A.depth ≤ C.depth ∧ A.depth = B.depth)).bind fun _ => polyAddLoop c d a b 0

/-- mzd_poly.h:152-162 `_mzd_poly_addmul_naive(C,A,B)`, `C != NULL`. -/
def polyAddmulNaive (C A B : MzdPoly) : Option MzdPoly :=
  (forC (fun i X => forC (fun j (X : Arr) => (X.get (i + j)).bind fun c => ((parr A).get i).bind fun a => ((parr B).get j).bind fun b =>
    (paddmul c a b).bind fun c => X.put (i + j) c) B.depth X) A.depth (parr C)).map fun X => { C with x := X.x }

/-- `mzd_poly_init(A->depth+B->depth-1,A->nrows,B->ncols)` (mzd_poly.h:153-154, mzd_poly.h:178-179, mzd_poly.h:213-214); the sum is an `int` -/
def polyProductInit (A B : MzdPoly) : Option MzdPoly :=
  (int? (A.depth + B.depth)).bind fun _ => polyInit (A.depth + B.depth - 1) A.nrows B.ncols

/-- mzd_poly.h:175-203 `_mzd_poly_addmul_karatsubs_balanced(C,A,B)`, `C != NULL`. -/
def polyAddmulKara (dbg : Bool) (C A B : MzdPoly) : Option MzdPoly :=
  (assert? dbg (A.depth = B.depth)).bind fun _ =>
  if A.depth = 1 then
    ((parr C).get 0).bind fun c => ((parr A).get 0).bind fun a => ((parr B).get 0).bind fun b => (paddmul c a b).bind fun c =>
    ((parr C).put 0 c).map fun X => { C with x := X.x }
  else (ptrAddmulKaratsuba A.depth none (parr C) (parr A) (parr B)).map fun X => { C with x := X.x }

/-- mzd_poly.h:209-218 `_mzd_poly_addmul_blm(C,A,B,f)`, `C != NULL`. -/
def polyAddmulBlm (dbg : Bool) (C A B : MzdPoly) (f : Blm) : Option MzdPoly :=
  (assert? dbg (f.F.ncols = A.depth ∧ f.G.ncols = B.depth)).bind fun _ =>
  (ptrApplyBlm dbg f (parr C) (parr A) (parr B)).map fun X => { C with x := X.x }

/-- mzd_poly.h:225-232 `_mzd_poly_addmul_crt(C,A,B)`. -/
def polyAddmulCrt (dbg : Bool) (env : BlmEnv) (fuel : Nat) (C : Option MzdPoly) (A B : MzdPoly) : Option (Option MzdPoly) :=
  (crtInit A.depth B.depth).bind fun p => (blmInitCrt dbg env fuel none A.depth B.depth p true).bind fun f =>
  match C with
  | some C => (polyAddmulBlm dbg C A B f).map some
  | none => (polyProductInit A B).bind fun C => (polyAddmulBlm dbg C A B f).map fun _ => none

/-! ### evaluation and interpolation -/

/-- mzd_poly.c:5-10 `mzd_slice_addmul_mzd(C,a,A)`. -/
def sliceAddmulMzd (C : Slice) (a : Word) (A : Pl) : Option Slice :=
  (forC (fun i X => (shl 1#64 i).bind fun p => if a &&& p ≠ 0#64 then (X.get i).bind fun x => (padd x x A).bind fun x => X.put i x else some X)
    C.depth (arr C)).map fun X => { C with x := X.x }

/-- mzd_slice.h:661-670 `mzd_slice_mul_karatsuba(NULL,A,B)` (also `mzd_slice_mul`). -/
def sliceMulKaratsubaNew (A B : Slice) : Option Slice :=
  if A.ncols ≠ B.nrows ∨ A.fid ≠ B.fid then none else (sliceInit A.ff A.fid A.nrows B.ncols).bind fun C => sliceAddmulKara C A B

/-- `if (j < A->depth) mzd_slice_addmul_mzd(a,acc,A->x[j])`, mzd_poly.c:52-53 -/
def ext1Acc (A : MzdPoly) (a : Slice) (acc : Word) (j : Nat) : Option Slice :=
  if j < A.depth then ((parr A).get j).bind fun p => sliceAddmulMzd a acc p else some a

/-- mzd_poly.c:51-54. -/
def ext1Step (A B : MzdPoly) (i j : Nat) (s : Ext1State) : Option Ext1State :=
  (writeElem s.Phi i j s.acc).bind fun Phi => (ext1Acc A s.a s.acc j).bind fun a => (ext1Acc B s.b s.acc j).bind fun b =>
  (fmul s.a.ff (BitVec.ofNat 64 i) s.acc).bind fun acc => some ⟨Phi, a, b, acc⟩

/-- mzd_poly.c:45-57; `c` has `d` entries. -/
def ext1Eval (A B : MzdPoly) (d i : Nat) (s : (Mzed × Slice × Slice) × (Nat → Slice)) : Option ((Mzed × Slice × Slice) × (Nat → Slice)) :=
  (sliceSetUi s.1.2.1 0#64).bind fun a => (sliceSetUi s.1.2.2 0#64).bind fun b =>
  (forC (ext1Step A B i) d ⟨s.1.1, a, b, 1#64⟩).bind fun t =>
  (sliceMulKaratsubaNew t.a t.b).bind fun ci => (need (i < d)).bind fun _ => some ((t.Phi, t.a, t.b), fun k => if k = i then ci else s.2 k)

/-- mzd_poly.c:63-68. -/
def ext1Interp (dbg : Bool) (Rho : Mzed) (c : Nat → Slice) (d : Nat) (s : Slice × Arr) : Option (Slice × Arr) :=
  forC (fun i s => forC (fun j (s : Slice × Arr) => (readElem Rho i j).bind fun x => (need (j < d)).bind fun _ => (sliceMulScalar dbg s.1 x (c j)).bind fun tmp =>
    ((arr tmp).get 0).bind fun t0 => (addAt s.2 i t0).bind fun X => some (tmp, X)) d s) d s

/-- `mzd_mul(c->x[0],a,b,0)`, mzd_poly.c:31 and mzd_poly.c:42 -/
def mulSlice0 (c : Slice) (a b : Pl) : Option Slice :=
  ((arr c).get 0).bind fun p => (pmul p a b).bind fun p => ((arr c).put 0 p).map fun X => { c with x := X.x }

/-- mzd_poly.c:36-39: `mzd_add(a->x[0],a->x[0],A->x[i])` for all `i`. -/
def sumSlice0 (a : Slice) (A : MzdPoly) : Option Slice :=
  (forC (fun i X => ((parr A).get i).bind fun p => addAt X 0 p) A.depth (arr a)).map fun X => { a with x := X.x }

/-- mzd_poly.c:20-71, once the field `ff` has been created. -/
def ext1Body (dbg : Bool) (cb : Codebook) (optK : Nat) (small : Bool) (ff : Gf2e) (fid : Nat) (C A B : MzdPoly) (d : Nat) : Option MzdPoly :=
  (sliceInit ff fid A.nrows A.ncols).bind fun a => (sliceInit ff fid B.nrows B.ncols).bind fun b =>
  (init ff fid d d).bind fun Phi => (writeElem Phi 0 0 1#64).bind fun Phi =>
  (need (1 < d)).bind fun _ =>
  (sliceInit ff fid A.nrows B.ncols).bind fun c0 => ((parr A).get 0).bind fun a0 => ((parr B).get 0).bind fun b0 => (mulSlice0 c0 a0 b0).bind fun c0 =>
  (forC (fun i Phi => writeElem Phi 1 i 1#64) d Phi).bind fun Phi =>
  (sumSlice0 a A).bind fun a => (sumSlice0 b B).bind fun b =>
  (sliceInit ff fid A.nrows B.ncols).bind fun c1 => ((arr a).get 0).bind fun a1 => ((arr b).get 0).bind fun b1 => (mulSlice0 c1 a1 b1).bind fun c1 =>
  (forC (fun i s => ext1Eval A B d (i + 2) s) (d - 2) ((Phi, a, b), fun k => if k = 0 then c0 else c1)).bind fun s =>
  (invert dbg cb optK small s.1.1).bind fun Rho => (sliceInit ff fid A.nrows B.ncols).bind fun tmp =>
  (ext1Interp dbg Rho s.2 d (tmp, parr C)).map fun s => { C with x := s.2.x }

/-- mzd_poly.c:12-79 `_mzd_poly_addmul_ext1(C,A,B)`; `irreducible_polynomials` has 17 entries.  The entries behind the tables of the field object, which no access
reads, are those of the total model, so that the objects can be compared. -/
def polyAddmulExt1 (dbg : Bool) (cb : Codebook) (optK : Nat) (small : Bool) (fid : Nat) (C A B : MzdPoly) : Option MzdPoly :=
  (int? (A.depth + B.depth)).bind fun _ =>
  let d := A.depth + B.depth - 1
  (assert? dbg (Nat.clog 2 d ≤ 16)).bind fun _ => (need (Nat.clog 2 d < 17)).bind fun _ =>
  (irredTable (Nat.clog 2 d))[0]?.bind fun n => (M4rie.gf2eInit (BitVec.ofNat 64 n)).bind fun g0 =>
  (gf2eInit dbg g0.powGen (g0.mulTab.getD fun _ _ => 0#64) (BitVec.ofNat 64 n)).bind fun ff =>
  (degreeToW? ff.degree).bind fun _ => ext1Body dbg cb optK small ff fid C A B d

/-! ### calls and programs -/

/-- mzd_poly.h:252-263 `mzd_poly_cmp(A,B)`; `cmp` is M4RI's `mzd_cmp`. -/
def polyCmp (cmp : (Nat × Nat) × (Nat → Nat → Word) → (Nat × Nat) × (Nat → Nat → Word) → BitVec 32) (A B : MzdPoly) : Option (BitVec 32) :=
  if A.depth ≠ B.depth then some (if A.depth < B.depth then -1#32 else 1#32)
  else forC (fun i r => ((parr A).get i).bind fun a => ((parr B).get i).bind fun b => some (r ||| cmp ((a.nr, a.nc), a.w) ((b.nr, b.nc), b.w))) A.depth 0#32

/-- mzd_poly.h:152-203, mzd_poly.c:12-79. -/
def polyAddmulBy (dbg : Bool) (lib : PolyLib) : PolyAlg → MzdPoly → MzdPoly → MzdPoly → Option MzdPoly
  | .naive, C, A, B => polyAddmulNaive C A B
  | .karatsuba, C, A, B => polyAddmulKara dbg C A B
  | .ext1, C, A, B => polyAddmulExt1 dbg lib.cb lib.optK lib.small lib.fid C A B

/-- mzd_poly.h:152-203, mzd_poly.c:12-79 with `C == NULL`. -/
def polyMulBy (dbg : Bool) : PolyAlg → MzdPoly → MzdPoly → Option MzdPoly
  | .naive, A, B => (polyProductInit A B).bind fun C => polyAddmulNaive C A B
  | .karatsuba, A, B => (polyProductInit A B).bind fun C => polyAddmulKara dbg C A B
  | .ext1, _, _ => none

/-- one call (mzd_poly.h:60-278, mzd_poly.c:12-79) -/
def polyCall (dbg : Bool) (lib : PolyLib) (c : PolyPool) : PolyOp → Option (PolyPool × PolyOut)
  | .init d deg m n => (polyInit deg m n).map fun A => (c.set d (some A), .unit)
  | .free d => (c d).map fun _ => (c.set d none, .unit)
  | .writeBit d t i j v => (c d).bind fun A => (polyWriteBit A t i j v).map fun R => (c.set d (some R), .unit)
  | .readBit a t i j => (c a).bind fun A => (polyReadBit A t i j).map fun b => (c, .bit b)
  | .randomize d r => (c d).bind fun A => (polyRandomize A r).map fun R => (c.set d (some R), .unit)
  | .addOffset d a b off => (polyAddLoop c d a b off).map fun c => (c, .unit)
  | .add d a b => (polyAdd dbg c d a b).map fun c => (c, .unit)
  | .adaptDepth d e => (c d).bind fun A => (polyAdaptDepth A e).map fun R => (c.set d (some R), .unit)
  | .addmul alg d a b => (need (d ≠ a ∧ d ≠ b)).bind fun _ =>
      (c d).bind fun C => (c a).bind fun A => (c b).bind fun B => (polyAddmulBy dbg lib alg C A B).map fun R => (c.set d (some R), .unit)
  | .mul alg d a b => (c a).bind fun A => (c b).bind fun B => (polyMulBy dbg alg A B).map fun R => (c.set d (some R), .unit)
  | .equal a b => (c a).bind fun A => (c b).bind fun B => (polyCmp lib.cmp A B).map fun r => (c, .bit (decide (r = 0#32)))

/-- a sequence of calls -/
def polyRun (dbg : Bool) (lib : PolyLib) : PolyPool → List PolyOp → Option (PolyPool × List PolyOut)
  | c, [] => some (c, [])
  | c, op :: ops => (polyCall dbg lib c op).bind fun p => (polyRun dbg lib p.1 ops).map fun q => (q.1, p.2 :: q.2)

end M4rie.Chk
