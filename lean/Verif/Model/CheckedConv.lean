import Verif.Model.Checked
import Verif.Model.Conv

/-!
# The conversions between packed and sliced matrices, and scalar multiplication by table, with every access checked

Same semantics as `Checked.lean`.  A row of a packed matrix has `width` words, a row of each slice `⌈ncols/64⌉`; only the
slices `k < depth` exist.
-/

namespace M4rie.Chk

/-- `x[0]->width` -/
def swidth (T : Slice) : Nat := (T.ncols + 63) / 64

/-- `x[k]->rows[i][b]` in row `t` of `d` slices of `W` words -/
def ldk (d W : Nat) (t : Nat → Nat → Word) (k b : Nat) : Option Word := if k < d ∧ b < W then some (t k b) else none
/-- `x[k]->rows[i][b] = v` -/
def stk (d W : Nat) (t : Nat → Nat → Word) (k b : Nat) (v : Word) : Option (Nat → Nat → Word) :=
  if k < d ∧ b < W then some (setSl t k b v) else none

/-- `t = f x t` for the statements `x` of a list -/
def runC {α σ : Type} (f : α → σ → Option σ) : List α → σ → Option σ
  | [], s => some s
  | x :: l, s => (f x s).bind (runC f l)

/-- `f x₁ | f x₂ | …` -/
def orC {α : Type} (f : α → Option Word) : List α → Option Word
  | [] => some 0#64
  | x :: l => (f x).bind fun v => (orC f l).bind fun u => some (v ||| u)

/-- `word_slice_64_n(f[j+word]<<lsh & mask)>>rsh` (conversion.c:232-262, conversion_slice8.c:29-530, conversion_slice16.c:50-433).
Simplification: the shifts inside `word_slice_64_n` have constant counts below 64 and are not checked again. -/
def sliceVal (n Wf : Nat) (f : Nat → Word) (j : Nat) (t : SliceTerm) : Option Word :=
  (ldr Wf f (j + t.word)).bind fun v => (shl v t.lsh).bind fun v => shr (wordSlice n (v &&& sliceMask n)) t.rsh

/-- one statement `t_k[j2] = ..` or `t_k[j2] |= ..` of the inner loop (conversion.c:231-238) -/
def sliceBulkStmt (n d Wf Wt : Nat) (f : Nat → Word) (j2 : Nat) (s : Nat × Bool × List SliceTerm) (t : Nat → Nat → Word) : Option (Nat → Nat → Word) :=
  (orC (sliceVal n Wf f (n * j2)) s.2.2).bind fun v =>
  if s.2.1 then stk d Wt t s.1 j2 v else (ldk d Wt t s.1 j2).bind fun u => stk d Wt t s.1 j2 (u ||| v)

/-- one statement `r_k |= ..` of the switch (conversion.c:241-257); `r_k` is a register -/
def sliceTailStmt (n Wf : Nat) (f : Nat → Word) (j : Nat) (s : Nat × SliceTerm) (r : Nat → Word) : Option (Nat → Word) :=
  (sliceVal n Wf f j s.2).bind fun v => some (setReg r s.1 (r s.1 ||| v))

/-- one statement `t_k[j2] |= r_k & bitmask_end` (conversion.c:261-263) -/
def sliceFinal (d Wt : Nat) (mask : Word) (r : Nat → Word) (j2 : Nat) (k : Nat) (t : Nat → Nat → Word) : Option (Nat → Nat → Word) :=
  (ldk d Wt t k j2).bind fun u => stk d Wt t k j2 (u ||| (r k &&& mask))

/-- One row of a loop of `_mzed_slice4`, `_mzed_slice8`, `_mzed_slice16` (conversion.c:225-265). -/
def sliceRow (n : Nat) (P : SlicePass) (d Wf Wt : Nat) (mask : Word) (f : Nat → Word) (t : Nat → Nat → Word) : Option (Nat → Nat → Word) :=
  let nb := (Wf - 1) / n
  (forC (fun j2 t => runC (sliceBulkStmt n d Wf Wt f j2) P.bulk t) nb t).bind fun t =>
  match P.cases.dropWhile (fun c => c.1 != Wf - n * nb) with
  | [] => none
  | c :: cs =>
    (runC (sliceTailStmt n Wf f (n * nb)) ((c :: cs).flatMap (·.2)) (fun _ => 0#64)).bind fun r =>
    runC (sliceFinal d Wt mask r nb) P.finals t

/-- The loop over the rows of `T`; `rows[i]` of `F` must exist. -/
def onRows (T : Slice) (F : Mzed) (row : Nat → (Nat → Nat → Word) → Option (Nat → Nat → Word)) : Option Slice :=
  (forC (fun i x => (need (i < F.nrows)).bind fun _ => (row i (fun k b => x k i b)).bind fun t => some (setSlRow x i t)) T.nrows T.x).map fun x => { T with x := x }

/-- A loop of `_mzed_slice4`, `_mzed_slice8`, `_mzed_slice16` over all rows (conversion.c:225-265). -/
def sliceRun (n : Nat) (P : SlicePass) (T : Slice) (F : Mzed) : Option Slice :=
  onRows T F fun i => sliceRow n P T.depth F.width (swidth T) T.highBitmask (F.words i)

/-- conversion.c:139-145: `word_slice_64_02(f[j+1]<<lsh & mask) | word_slice_64_02(f[j]<<lsh & mask)>>32` -/
def slice2Word (Wf : Nat) (f : Nat → Word) (j lsh : Nat) : Option Word :=
  (ldr Wf f (j + 0)).bind fun r0 => (ldr Wf f (j + 1)).bind fun r1 =>
  (shl r0 lsh).bind fun a => (shl r1 lsh).bind fun b =>
  (shr (wordSlice 2 (a &&& xaaaaaaaa)) 32).bind fun r2 => some (wordSlice 2 (b &&& xaaaaaaaa) ||| r2)

/-- conversion.c:168-171: `word_slice_64_02(f[j]<<lsh & mask)>>32` -/
def slice2Half (Wf : Nat) (f : Nat → Word) (j lsh : Nat) : Option Word :=
  (ldr Wf f (j + 0)).bind fun r0 => (shl r0 lsh).bind fun a => shr (wordSlice 2 (a &&& xaaaaaaaa)) 32

/-- conversion.c:155-156: `t_k[j2] &= ~bitmask_end; t_k[j2] |= v & bitmask_end` -/
def slice2Put (d Wt : Nat) (mask : Word) (t : Nat → Nat → Word) (k j2 : Nat) (v : Word) : Option (Nat → Nat → Word) :=
  (ldk d Wt t k j2).bind fun u => stk d Wt t k j2 ((u &&& ~~~mask) ||| (v &&& mask))

/-- conversion.c:132-176 one row of `_mzed_slice2`. -/
def slice2Row (d Wf Wt : Nat) (mask : Word) (f : Nat → Word) (t : Nat → Nat → Word) : Option (Nat → Nat → Word) :=
  let nb := (Wf - 1) / 2
  (forC (fun j2 t => (slice2Word Wf f (2 * j2) 1).bind fun v => (stk d Wt t 0 j2 v).bind fun t =>
    (slice2Word Wf f (2 * j2) 0).bind fun v => stk d Wt t 1 j2 v) nb t).bind fun t =>
  match Wf - 2 * nb with
  | 2 => (slice2Word Wf f (2 * nb) 1).bind fun v => (slice2Put d Wt mask t 0 nb v).bind fun t =>
      (slice2Word Wf f (2 * nb) 0).bind fun v => slice2Put d Wt mask t 1 nb v
  | 1 => (slice2Half Wf f (2 * nb) 1).bind fun v => (slice2Put d Wt mask t 0 nb v).bind fun t =>
      (slice2Half Wf f (2 * nb) 0).bind fun v => slice2Put d Wt mask t 1 nb v
  | _ => none

/-- conversion.c:121-179 `_mzed_slice2`; `T->x[0]` is read before anything else. -/
def slice2 (dbg : Bool) (T : Slice) (F : Mzed) : Option Slice :=
  (assert? dbg (2 ≤ T.depth)).bind fun _ => (need (0 < T.depth)).bind fun _ =>
  if mzedIsZero F then some T else onRows T F fun i => slice2Row T.depth F.width (swidth T) T.highBitmask (F.words i)

/-- conversion.c:214-318 `_mzed_slice4`. -/
def slice4 (dbg : Bool) (T : Slice) (F : Mzed) : Option Slice :=
  (assert? dbg (T.depth = 3 ∨ T.depth = 4)).bind fun _ => (need (0 < T.depth)).bind fun _ =>
  if mzedIsZero F then some T else if T.depth = 3 then sliceRun 4 slicePass4_3 T F else sliceRun 4 slicePass4_4 T F

/-- conversion_slice8.c:29-530 `_mzed_slice8`. -/
def slice8 (dbg : Bool) (T : Slice) (F : Mzed) : Option Slice :=
  (assert? dbg (4 < T.depth ∧ T.depth ≤ 8)).bind fun _ => (need (0 < T.depth)).bind fun _ =>
  if mzedIsZero F then some T else
  match T.depth with
  | 8 => sliceRun 8 slicePass8_8 T F
  | 7 => sliceRun 8 slicePass8_7 T F
  | 6 => sliceRun 8 slicePass8_6 T F
  | 5 => sliceRun 8 slicePass8_5 T F
  | _ => none

/-- conversion_slice16.c:50-433 `_mzed_slice16`. -/
def slice16 (dbg : Bool) (T : Slice) (F : Mzed) : Option Slice :=
  (assert? dbg (8 < T.depth ∧ T.depth ≤ 16)).bind fun _ => (need (0 < T.depth)).bind fun _ =>
  if mzedIsZero F then some T else
  (sliceRun 16 slicePass16_lo T F).bind fun T =>
  if T.depth ≥ 12 then
    (sliceRun 16 slicePass16_mid T F).bind fun T =>
    match T.depth with
    | 16 => sliceRun 16 slicePass16_16 T F
    | 15 => sliceRun 16 slicePass16_15 T F
    | 14 => sliceRun 16 slicePass16_14 T F
    | 13 => sliceRun 16 slicePass16_13 T F
    | _ => some T
  else
    match T.depth with
    | 11 => sliceRun 16 slicePass16_11 T F
    | 10 => sliceRun 16 slicePass16_10 T F
    | 9 => sliceRun 16 slicePass16_9 T F
    | _ => none

/-- conversion.c:63-86 the switch of `mzed_slice`. -/
def sliceDispatch (dbg : Bool) (A : Slice) (Z : Mzed) : Option Slice :=
  match Z.ff.degree with
  | 2 => slice2 dbg A Z
  | 3 => slice4 dbg A Z
  | 4 => slice4 dbg A Z
  | 5 => slice8 dbg A Z
  | 6 => slice8 dbg A Z
  | 7 => slice8 dbg A Z
  | 8 => slice8 dbg A Z
  | 9 => slice16 dbg A Z
  | 10 => slice16 dbg A Z
  | 11 => slice16 dbg A Z
  | 12 => slice16 dbg A Z
  | 13 => slice16 dbg A Z
  | 14 => slice16 dbg A Z
  | 15 => slice16 dbg A Z
  | 16 => slice16 dbg A Z
  | _ => none

/-- conversion.c:56-86 `mzed_slice(A,Z)`, `A` given. -/
def slice (dbg : Bool) (A : Slice) (Z : Mzed) : Option Slice := sliceDispatch dbg (mzdSliceSetUi A 0#64) Z

/-- conversion.c:56-86 `mzed_slice(NULL,Z)`. -/
def sliceNew (dbg : Bool) (Z : Mzed) : Option Slice := sliceDispatch dbg (mzdSliceInit Z.ff Z.fid Z.nrows Z.ncols) Z

/-! ### cling -/

/-- `word_cling_64_n(f_slice[j2]<<lsh)>>rsh` (conversion.c:336-339). -/
def clingVal (n d Wf : Nat) (f : Nat → Nat → Word) (j2 : Nat) (t : ClingTerm) : Option Word :=
  (ldk d Wf f t.slice j2).bind fun v => (shl v t.lsh).bind fun v => shr (wordCling n v) t.rsh

/-- A statement writing `t[j+offset]` (conversion.c:336-366). -/
def clingStmt (n d Wf Wt : Nat) (mask : Word) (f : Nat → Nat → Word) (j2 : Nat) (s : Nat × ClingOp × List ClingTerm) (t : Nat → Word) : Option (Nat → Word) :=
  (orC (clingVal n d Wf f j2) s.2.2).bind fun v =>
  let b := n * j2 + s.1
  match s.2.1 with
  | .set => str Wt t b v
  | .or => (ldr Wt t b).bind fun u => str Wt t b (u ||| v)
  | .masked => (ldr Wt t b).bind fun u => str Wt t b ((u &&& ~~~mask) ||| (v &&& mask))

/-- One row of a loop of `_mzed_cling*` (conversion.c:191-211, 328-372). -/
def clingRow (n : Nat) (P : ClingPass) (d Wf Wt : Nat) (mask : Word) (f : Nat → Nat → Word) (t : Nat → Word) : Option (Nat → Word) :=
  let nb := (Wt - 1) / n
  (forC (fun j2 t => runC (clingStmt n d Wf Wt mask f j2) P.bulk t) nb t).bind fun t =>
  match P.cases.dropWhile (fun c => c.1 != Wt - n * nb) with
  | [] => none
  | c :: cs =>
    if P.fall then
      (ldr Wt t (Wt - 1)).bind fun tmp =>
      (runC (clingStmt n d Wf Wt mask f nb) ((c :: cs).flatMap (·.2)) t).bind fun t =>
      (ldr Wt t (Wt - 1)).bind fun u => str Wt t (Wt - 1) ((u &&& mask) ||| (tmp &&& ~~~mask))
    else runC (clingStmt n d Wf Wt mask f nb) c.2 t

/-- A pass over row `i` (conversion_cling16.c:36-121). -/
def clingRunRow (n : Nat) (P : ClingPass) (F : Slice) (i : Nat) (T : Mzed) : Option Mzed :=
  (need (i < F.nrows)).bind fun _ => (rowOf T i).bind fun t =>
  (clingRow n P F.depth (swidth F) T.width T.highBitmask (fun k b => F.x k i b) t).bind fun r => some { T with words := setRow T.words i r }

/-- A pass over all rows (conversion_cling16.c:36-121). -/
def clingRun (n : Nat) (P : ClingPass) (F : Slice) (T : Mzed) : Option Mzed := forC (fun i T => clingRunRow n P F i T) T.nrows T

/-- conversion.c:181-212 `_mzed_cling2`. -/
def cling2 (T : Mzed) (F : Slice) : Option Mzed := if mzdSliceIsZero F then some T else clingRun 2 clingPass2 F T

/-- conversion.c:320-415 `_mzed_cling4`. -/
def cling4 (T : Mzed) (F : Slice) : Option Mzed :=
  if mzdSliceIsZero F then some T else if F.ff.degree = 4 then clingRun 4 clingPass4_4 F T else clingRun 4 clingPass4_3 F T

/-- conversion_cling8.c:29-275 `_mzed_cling8`. -/
def cling8 (T : Mzed) (F : Slice) : Option Mzed :=
  if mzdSliceIsZero F then some T else
  match F.ff.degree with
  | 8 => clingRun 8 clingPass8_8 F T
  | 7 => clingRun 8 clingPass8_7 F T
  | 6 => clingRun 8 clingPass8_6 F T
  | 5 => clingRun 8 clingPass8_5 F T
  | _ => none

/-- conversion_cling16.c:28-541 `_mzed_cling16`. -/
def cling16 (T : Mzed) (F : Slice) : Option Mzed :=
  if mzdSliceIsZero F then some T else
  (clingRun 16 clingPass16_lo F T).bind fun T =>
  if T.ff.degree < 12 then
    match T.ff.degree with
    | 9 => clingRun 16 clingPass16_9 F T
    | 10 => clingRun 16 clingPass16_10 F T
    | 11 => clingRun 16 clingPass16_11 F T
    | _ => some T
  else
    forC (fun i T => (clingRunRow 16 clingPass16_mid F i T).bind fun T =>
      match T.ff.degree with
      | 13 => clingRun 16 clingPass16_13 F T
      | 14 => clingRun 16 clingPass16_14 F T
      | 15 => clingRun 16 clingPass16_15 F T
      | 16 => clingRun 16 clingPass16_16 F T
      | _ => some T) T.nrows T

/-- conversion.c:96-119 the switch of `mzed_cling`. -/
def clingDispatch (A : Mzed) (Z : Slice) : Option Mzed :=
  match Z.ff.degree with
  | 2 => cling2 A Z
  | 3 => cling4 A Z
  | 4 => cling4 A Z
  | 5 => cling8 A Z
  | 6 => cling8 A Z
  | 7 => cling8 A Z
  | 8 => cling8 A Z
  | 9 => cling16 A Z
  | 10 => cling16 A Z
  | 11 => cling16 A Z
  | 12 => cling16 A Z
  | 13 => cling16 A Z
  | 14 => cling16 A Z
  | 15 => cling16 A Z
  | 16 => cling16 A Z
  | _ => none

/-- conversion.c:88-119 `mzed_cling(A,Z)`, `A` given (`mzed_set_ui(A,0)` writes no element). -/
def cling (A : Mzed) (Z : Slice) : Option Mzed := (setUi A 0#64).bind fun A => clingDispatch A Z

/-- conversion.c:88-119 `mzed_cling(NULL,Z)`. -/
def clingNew (Z : Slice) : Option Mzed := (int? (degreeToW Z.ff.degree * Z.ncols)).bind fun _ => clingDispatch (mzedInit Z.ff Z.fid Z.nrows Z.ncols) Z

/-! ### multiplication by a scalar -/

/-- gf2e.h:176-188 `mul[i]`, `m` products of `w` bits each, those from `k` on. -/
def t16Entry (ff : Gf2e) (w : Nat) (a i : Word) : Nat → Option Word
  | 0 => some 0#64
  | m + 1 =>
    (t16Entry ff w a i m).bind fun r =>
    (shr i (m * w)).bind fun s =>
    (shl 1#64 w).bind fun p =>
    (fmul ff a (s &&& (p - 1#64))).bind fun v => (shl v (m * w)).bind fun v => some (r ||| v)

/-- gf2e.h:166-193 `gf2e_t16_init(ff,a)`: all `2^16` entries. -/
def t16 (ff : Gf2e) (a : Word) : Option (Nat → Word) :=
  (degreeToW? ff.degree).bind fun w =>
  forC (fun i (mul : Nat → Word) => (t16Entry ff w a (BitVec.ofNat 64 i) (16 / w)).bind fun v => some (setWord mul i v)) (2 ^ 16) (fun _ => 0#64)

/-- `mul[x]`, an array of `2^16` words -/
def t16Get (mul : Nat → Word) (x : Word) : Option Word := if x.toNat < 2 ^ 16 then some (mul x.toNat) else none

/-- mzed.c:175-179, 184-189 four table lookups for one word. -/
def scalarWord (mul : Nat → Word) (tmp : Word) : Option Word :=
  let mask16 := twoPow 16 - 1#64
  (shr tmp 16).bind fun s1 => (shr tmp 32).bind fun s2 => (shr tmp 48).bind fun s3 =>
  (t16Get mul (s3 &&& mask16)).bind fun m3 => (shl m3 48).bind fun m3 =>
  (t16Get mul (s2 &&& mask16)).bind fun m2 => (shl m2 32).bind fun m2 =>
  (t16Get mul (s1 &&& mask16)).bind fun m1 => (shl m1 16).bind fun m1 =>
  (t16Get mul (tmp &&& mask16)).bind fun m0 => some (m3 ||| m2 ||| m1 ||| m0)

/-- mzed.c:170-190 one row of the table method: source row of `Wb`, target row of `Wc` words. -/
def scalarRow (mul : Nat → Word) (Wb Wc : Nat) (hi : Word) (b c : Nat → Word) : Option (Nat → Word) :=
  (forC (fun j c => (ldr Wb b j).bind fun v => (scalarWord mul v).bind fun v => str Wc c j v) (Wc - 1) c).bind fun c =>
  (need (0 < Wb ∧ 0 < Wc)).bind fun _ =>
  (ldr Wb b (Wb - 1)).bind fun v =>
  (ldr Wc c (Wc - 1)).bind fun u => (str Wc c (Wc - 1) (u &&& ~~~hi)).bind fun c =>
  (scalarWord mul (v &&& hi)).bind fun m =>
  (ldr Wc c (Wc - 1)).bind fun u => str Wc c (Wc - 1) (u ||| m)

/-- mzed.c:141-193 `mzed_mul_scalar(C,a,B)`, `C` given (another matrix than `B`). -/
def mulScalar (dbg : Bool) (C : Mzed) (a : Word) (B : Mzed) : Option Mzed :=
  (if B.ff.degree > 8 then some true else (int? (B.nrows * B.ncols)).map fun s => decide (s < 2 ^ 17)).bind fun direct =>
  if direct then (mzedCopy? C B).bind fun C => rescaleAll dbg a B.nrows C
  else
    (t16 B.ff a).bind fun mul =>
    forC (fun i C => (rowOf C i).bind fun c => (rowOf B i).bind fun b =>
      (scalarRow mul B.width C.width B.highBitmask b c).bind fun r => some { C with words := setRow C.words i r }) C.nrows C

end M4rie.Chk
