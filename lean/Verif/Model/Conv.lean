import Verif.Model.ConvTables
import Verif.Model.MzedMat

/-!
# Sliced matrices and the conversions between packed and sliced representation

The loop bodies are in `ConvTables.lean` (generated from the source); this file interprets them.
-/

namespace M4rie

/-- mzd_slice.h:51-58 `mzd_slice_t`: `x[k]->rows[i][b]` is `x k i b`.  Only the slices `k < depth` exist in C; the
others are carried as zero. -/
structure Slice where
  ff : Gf2e
  fid : Nat
  nrows : Nat
  ncols : Nat
  depth : Nat
  x : Nat → Nat → Nat → Word

/-- `for(i=0; i<n; i++) s = f i s` where an iteration may die -/
def forNM {σ : Type} (f : Nat → σ → Option σ) : Nat → σ → Option σ
  | 0, s => some s
  | n + 1, s => (forNM f n s).bind (f n)

/-- mzd_slice.h:78-89 `mzd_slice_init`. -/
def mzdSliceInit (ff : Gf2e) (fid m n : Nat) : Slice := ⟨ff, fid, m, n, ff.degree, fun _ _ _ => 0#64⟩

/-- M4RI `mzd_set_ui(A,value)`: zero, or the identity if `value` is odd. -/
def mzdSetUi (nr nc : Nat) (A : Nat → Nat → Word) (value : Bool) : Nat → Nat → Word :=
  ofBits fun i p => if i < nr ∧ p < nc then value && i == p else bitAt A i p

/-- mzd_slice.c:57-61 `mzd_slice_set_ui`. -/
def mzdSliceSetUi (A : Slice) (value : Word) : Slice :=
  { A with x := fun k => if k < A.depth then mzdSetUi A.nrows A.ncols (A.x k) (value.getLsbD k) else A.x k }

/-- mzd_slice.h:264-270 `mzd_slice_is_zero`. -/
def mzdSliceIsZero (A : Slice) : Bool := (List.range A.depth).all fun k => mzdIsZero A.nrows A.ncols (A.x k)

/-! ### conversion.h:306-319, the masks -/
def x80008000 : Word := 0x8000800080008000#64
def x80808080 : Word := 0x8080808080808080#64
def x88888888 : Word := 0x8888888888888888#64
def xaaaaaaaa : Word := 0xaaaaaaaaaaaaaaaa#64
def xcccccccc : Word := 0xcccccccccccccccc#64
def xf0f0f0f0 : Word := 0xf0f0f0f0f0f0f0f0#64
def xff00ff00 : Word := 0xff00ff00ff00ff00#64
def xffff0000 : Word := 0xffff0000ffff0000#64
def xffffffff : Word := 0xffffffff00000000#64
def x__left04 : Word := 0xf000000000000000#64
def x__left08 : Word := 0xff00000000000000#64
def x__left16 : Word := 0xffff000000000000#64
def x__left32 : Word := 0xffffffff00000000#64

/-- `a = (a & m) | (a & m>>s)<<l` (C precedence: `>>` and `<<` bind tighter than `&` and `|`). -/
def gatherStep (m : Word) (s l : Nat) (a : Word) : Word := (a &&& m) ||| ((a &&& (m >>> s)) <<< l)
/-- `a = (a & m) | (a & m>>s)>>l` -/
def spreadStep (m : Word) (s l : Nat) (a : Word) : Word := (a &&& m) ||| ((a &&& (m >>> s)) >>> l)
/-- `a = (a & m & left) | (a & (m>>s) & left)>>l` -/
def spreadFirst (m left : Word) (s l : Nat) (a : Word) : Word :=
  ((a &&& m) &&& left) ||| (((a &&& (m >>> s)) &&& left) >>> l)

/-- `word_slice_64_02`, `word_slice_64_04` (conversion.c:22-37), `word_slice_64_08` (conversion_slice8.c:22-27), `word_slice_64_16`
(conversion_slice16.c:22-26). -/
def wordSlice : Nat → Word → Word
  | 2, a => gatherStep xffffffff 32 16 (gatherStep xffff0000 16 8 (gatherStep xff00ff00 8 4
      (gatherStep xf0f0f0f0 4 2 (gatherStep xcccccccc 2 1 a))))
  | 4, a => gatherStep xffffffff 32 24 (gatherStep xffff0000 16 12 (gatherStep xff00ff00 8 6 (gatherStep xf0f0f0f0 4 3 a)))
  | 8, a => gatherStep xffffffff 32 28 (gatherStep xffff0000 16 14 (gatherStep xff00ff00 8 7 a))
  | 16, a => gatherStep xffffffff 32 30 (gatherStep xffff0000 16 15 a)
  | _, a => a

/-- `word_cling_64_02`, `word_cling_64_04` (conversion.c:39-54), `word_cling_64_08` (conversion_cling8.c:22-27), `word_cling_64_16`
(conversion_cling16.c:22-26). -/
def wordCling : Nat → Word → Word
  | 2, a => spreadStep xaaaaaaaa 1 1 (spreadStep xcccccccc 2 2 (spreadStep xf0f0f0f0 4 4 (spreadStep xff00ff00 8 8
      (spreadFirst xffff0000 x__left32 16 16 a))))
  | 4, a => spreadStep xaaaaaaaa 1 3 (spreadStep xcccccccc 2 6 (spreadStep xf0f0f0f0 4 12
      (spreadFirst xff00ff00 x__left16 8 24 a)))
  | 8, a => spreadStep xaaaaaaaa 1 7 (spreadStep xcccccccc 2 14 (spreadFirst xf0f0f0f0 x__left08 4 28 a))
  | 16, a => spreadStep xaaaaaaaa 1 15 (spreadFirst xcccccccc x__left04 2 30 a)
  | _, a => a

/-- the mask applied before `word_slice_64_..` (one bit per entry) -/
def sliceMask : Nat → Word
  | 2 => xaaaaaaaa
  | 4 => x88888888
  | 8 => x80808080
  | 16 => x80008000
  | _ => 0#64

/-- `word_slice_64_n(f[j+word]<<lsh & mask)>>rsh` -/
def SliceTerm.val (n : Nat) (f : Nat → Word) (j : Nat) (t : SliceTerm) : Word :=
  wordSlice n ((f (j + t.word) <<< t.lsh) &&& sliceMask n) >>> t.rsh

def orAll (l : List Word) : Word := l.foldr (· ||| ·) 0#64

/-- `t_k[b] := v`, on one row of all slices -/
def setSl (t : Nat → Nat → Word) (k b : Nat) (v : Word) : Nat → Nat → Word :=
  fun k' b' => if k' = k ∧ b' = b then v else t k' b'

/-- `r_k := v` -/
def setReg (r : Nat → Word) (k : Nat) (v : Word) : Nat → Word := fun k' => if k' = k then v else r k'

/-- One iteration of the inner loop (`j = n*j2`). -/
def SlicePass.bulkStep (n : Nat) (P : SlicePass) (f : Nat → Word) (j2 : Nat) (t : Nat → Nat → Word) : Nat → Nat → Word :=
  P.bulk.foldl (fun t s => let v := orAll (s.2.2.map (SliceTerm.val n f (n * j2)))
    setSl t s.1 j2 (if s.2.1 then v else t s.1 j2 ||| v)) t

/-- The switch: everything from the matching case on, `r_k |= ..`. -/
def SlicePass.tail (n : Nat) (f : Nat → Word) (j : Nat) (cs : List (Nat × List (Nat × SliceTerm))) : Nat → Word :=
  (cs.flatMap (·.2)).foldl (fun r s => setReg r s.1 (r s.1 ||| s.2.val n f j)) (fun _ => 0#64)

/-- One row of a pass.  The loop `for(j=0, j2=0; j+n < width; j+=n, j2++)` runs `(width-1)/n` times; the
`default` case of the switch dies. -/
def SlicePass.row (n : Nat) (P : SlicePass) (width : Nat) (bitmaskEnd : Word) (f : Nat → Word) (t : Nat → Nat → Word) :
    Option (Nat → Nat → Word) :=
  let nb := (width - 1) / n
  let t := forN (P.bulkStep n f) nb t
  match P.cases.dropWhile (fun c => c.1 != width - n * nb) with
  | [] => none
  | c :: cs => let r := SlicePass.tail n f (n * nb) (c :: cs)
    some (P.finals.foldl (fun t k => setSl t k nb (t k nb ||| (r k &&& bitmaskEnd))) t)

/-- write back row `i` of all slices -/
def setSlRow (x : Nat → Nat → Nat → Word) (i : Nat) (t : Nat → Nat → Word) : Nat → Nat → Nat → Word :=
  fun k i' b => if i' = i then t k b else x k i' b

/-- `high_bitmask` of the slices -/
def Slice.highBitmask (T : Slice) : Word := leftBitmask (T.ncols % 64)

/-- A loop over the rows of `T`. -/
def Slice.onRows (T : Slice) (row : Nat → (Nat → Nat → Word) → Option (Nat → Nat → Word)) : Option Slice :=
  (forNM (fun i x => (row i (fun k b => x k i b)).map (setSlRow x i)) T.nrows T.x).map fun x => { T with x := x }

def SlicePass.run (n : Nat) (P : SlicePass) (T : Slice) (F : Mzed) : Option Slice :=
  T.onRows fun i => P.row n F.width T.highBitmask (F.words i)

/-- conversion.c:142-178: one row of `_mzed_slice2` (the value written to slice `k` from words `r0`, `r1`). -/
def slice2Val (f : Nat → Word) (j lsh : Nat) : Word :=
  wordSlice 2 ((f (j + 1) <<< lsh) &&& xaaaaaaaa) ||| (wordSlice 2 ((f (j + 0) <<< lsh) &&& xaaaaaaaa) >>> 32)

/-- conversion.c:142-178 `_mzed_slice2`, one row. -/
def slice2Row (width : Nat) (bitmaskEnd : Word) (f : Nat → Word) (t : Nat → Nat → Word) : Option (Nat → Nat → Word) :=
  let nb := (width - 1) / 2
  let t := forN (fun j2 t => setSl (setSl t 0 j2 (slice2Val f (2 * j2) 1)) 1 j2 (slice2Val f (2 * j2) 0)) nb t
  let j := 2 * nb
  match width - j with
  | 2 =>
    let t := setSl t 0 nb ((t 0 nb &&& ~~~bitmaskEnd) ||| (slice2Val f j 1 &&& bitmaskEnd))
    some (setSl t 1 nb ((t 1 nb &&& ~~~bitmaskEnd) ||| (slice2Val f j 0 &&& bitmaskEnd)))
  | 1 =>
    let t := setSl t 0 nb ((t 0 nb &&& ~~~bitmaskEnd) ||| ((wordSlice 2 ((f (j + 0) <<< 1) &&& xaaaaaaaa) >>> 32) &&& bitmaskEnd))
    some (setSl t 1 nb ((t 1 nb &&& ~~~bitmaskEnd) ||| ((wordSlice 2 ((f (j + 0) <<< 0) &&& xaaaaaaaa) >>> 32) &&& bitmaskEnd)))
  | _ => none

/-- conversion.c:121-179 `_mzed_slice2`. -/
def mzedSlice2 (T : Slice) (F : Mzed) : Option Slice :=
  if ¬ 2 ≤ T.depth then none else
  if mzedIsZero F then some T else T.onRows fun i => slice2Row F.width T.highBitmask (F.words i)

/-- conversion.c:214-318 `_mzed_slice4`. -/
def mzedSlice4 (T : Slice) (F : Mzed) : Option Slice :=
  if ¬ (T.depth = 3 ∨ T.depth = 4) then none else
  if mzedIsZero F then some T else if T.depth = 3 then slicePass4_3.run 4 T F else slicePass4_4.run 4 T F

/-- conversion_slice8.c:29-530 `_mzed_slice8`. -/
def mzedSlice8 (T : Slice) (F : Mzed) : Option Slice :=
  if ¬ (4 < T.depth ∧ T.depth ≤ 8) then none else
  if mzedIsZero F then some T else
  match T.depth with
  | 8 => slicePass8_8.run 8 T F
  | 7 => slicePass8_7.run 8 T F
  | 6 => slicePass8_6.run 8 T F
  | 5 => slicePass8_5.run 8 T F
  | _ => none

/-- conversion_slice16.c:50-433 `_mzed_slice16`. -/
def mzedSlice16 (T : Slice) (F : Mzed) : Option Slice :=
  if ¬ (8 < T.depth ∧ T.depth ≤ 16) then none else
  if mzedIsZero F then some T else
  (slicePass16_lo.run 16 T F).bind fun T =>
  if T.depth ≥ 12 then
    (slicePass16_mid.run 16 T F).bind fun T =>
    match T.depth with
    | 16 => slicePass16_16.run 16 T F
    | 15 => slicePass16_15.run 16 T F
    | 14 => slicePass16_14.run 16 T F
    | 13 => slicePass16_13.run 16 T F
    | _ => some T
  else
    match T.depth with
    | 11 => slicePass16_11.run 16 T F
    | 10 => slicePass16_10.run 16 T F
    | 9 => slicePass16_9.run 16 T F
    | _ => none

/-- conversion.c:63-83: the switch of `mzed_slice` (`none`: `m4ri_die`). -/
def mzedSliceDispatch (A : Slice) (Z : Mzed) : Option Slice :=
  match Z.ff.degree with
  | 2 => mzedSlice2 A Z
  | 3 => mzedSlice4 A Z
  | 4 => mzedSlice4 A Z
  | 5 => mzedSlice8 A Z
  | 6 => mzedSlice8 A Z
  | 7 => mzedSlice8 A Z
  | 8 => mzedSlice8 A Z
  | 9 => mzedSlice16 A Z
  | 10 => mzedSlice16 A Z
  | 11 => mzedSlice16 A Z
  | 12 => mzedSlice16 A Z
  | 13 => mzedSlice16 A Z
  | 14 => mzedSlice16 A Z
  | 15 => mzedSlice16 A Z
  | 16 => mzedSlice16 A Z
  | _ => none

/-- conversion.c:56-86 `mzed_slice(A,Z)`, `A` given. -/
def mzedSlice? (A : Slice) (Z : Mzed) : Option Slice := mzedSliceDispatch (mzdSliceSetUi A 0#64) Z
/-- conversion.c:56-86 `mzed_slice(NULL,Z)`. -/
def mzedSliceNew? (Z : Mzed) : Option Slice := mzedSliceDispatch (mzdSliceInit Z.ff Z.fid Z.nrows Z.ncols) Z

/-! ### cling -/

/-- `word_cling_64_n(f_slice[j2]<<lsh)>>rsh` -/
def ClingTerm.val (n : Nat) (f : Nat → Nat → Word) (j2 : Nat) (t : ClingTerm) : Word :=
  wordCling n (f t.slice j2 <<< t.lsh) >>> t.rsh

/-- A statement writing `t[j+offset]`. -/
def clingStmt (n : Nat) (bitmaskEnd : Word) (f : Nat → Nat → Word) (j2 : Nat) (t : Nat → Word)
    (s : Nat × ClingOp × List ClingTerm) : Nat → Word :=
  let v := orAll (s.2.2.map (ClingTerm.val n f j2))
  let b := n * j2 + s.1
  setWord t b (match s.2.1 with
    | .set => v
    | .or => t b ||| v
    | .masked => (t b &&& ~~~bitmaskEnd) ||| (v &&& bitmaskEnd))

/-- One row of a pass (the row of all slices `f`, the row `t` written).  With `fall` the switch falls through and
the last word is recombined with its old value; otherwise only the matching case runs.  No matching case: dies
(in `_mzed_cling2` the switch has no default; the case does not occur, the width is positive). -/
def ClingPass.row (n : Nat) (P : ClingPass) (width : Nat) (bitmaskEnd : Word) (f : Nat → Nat → Word) (t : Nat → Word) :
    Option (Nat → Word) :=
  let nb := (width - 1) / n
  let t := forN (fun j2 t => P.bulk.foldl (clingStmt n bitmaskEnd f j2) t) nb t
  match P.cases.dropWhile (fun c => c.1 != width - n * nb) with
  | [] => none
  | c :: cs =>
    if P.fall then
      let tmp := t (width - 1)
      let t := ((c :: cs).flatMap (·.2)).foldl (clingStmt n bitmaskEnd f nb) t
      some (setWord t (width - 1) ((t (width - 1) &&& bitmaskEnd) ||| (tmp &&& ~~~bitmaskEnd)))
    else some (c.2.foldl (clingStmt n bitmaskEnd f nb) t)

/-- A pass over row `i`. -/
def ClingPass.runRow (n : Nat) (P : ClingPass) (F : Slice) (i : Nat) (T : Mzed) : Option Mzed :=
  (P.row n T.width T.highBitmask (fun k b => F.x k i b) (T.words i)).map fun r => { T with words := setRow T.words i r }

/-- A pass over all rows. -/
def ClingPass.run (n : Nat) (P : ClingPass) (F : Slice) (T : Mzed) : Option Mzed :=
  forNM (fun i T => P.runRow n F i T) T.nrows T

/-- conversion.c:183-211 `_mzed_cling2`. -/
def mzedCling2 (T : Mzed) (F : Slice) : Option Mzed :=
  if mzdSliceIsZero F then some T else clingPass2.run 2 F T

/-- conversion.c:320-415 `_mzed_cling4`. -/
def mzedCling4 (T : Mzed) (F : Slice) : Option Mzed :=
  if mzdSliceIsZero F then some T else if F.ff.degree = 4 then clingPass4_4.run 4 F T else clingPass4_3.run 4 F T

/-- conversion_cling8.c:29-275 `_mzed_cling8`. -/
def mzedCling8 (T : Mzed) (F : Slice) : Option Mzed :=
  if mzdSliceIsZero F then some T else
  match F.ff.degree with
  | 8 => clingPass8_8.run 8 F T
  | 7 => clingPass8_7.run 8 F T
  | 6 => clingPass8_6.run 8 F T
  | 5 => clingPass8_5.run 8 F T
  | _ => none

/-- conversion_cling16.c:28-541 `_mzed_cling16`; for degrees 13..16 the last pass (over *all* rows) is nested in
the loop over the rows of the middle pass. -/
def mzedCling16 (T : Mzed) (F : Slice) : Option Mzed :=
  if mzdSliceIsZero F then some T else
  (clingPass16_lo.run 16 F T).bind fun T =>
  if T.ff.degree < 12 then
    match T.ff.degree with
    | 9 => clingPass16_9.run 16 F T
    | 10 => clingPass16_10.run 16 F T
    | 11 => clingPass16_11.run 16 F T
    | _ => some T
  else
    forNM (fun i T => (clingPass16_mid.runRow 16 F i T).bind fun T =>
      match T.ff.degree with
      | 13 => clingPass16_13.run 16 F T
      | 14 => clingPass16_14.run 16 F T
      | 15 => clingPass16_15.run 16 F T
      | 16 => clingPass16_16.run 16 F T
      | _ => some T) T.nrows T

/-- conversion.c:96-116: the switch of `mzed_cling`. -/
def mzedClingDispatch (A : Mzed) (Z : Slice) : Option Mzed :=
  match Z.ff.degree with
  | 2 => mzedCling2 A Z
  | 3 => mzedCling4 A Z
  | 4 => mzedCling4 A Z
  | 5 => mzedCling8 A Z
  | 6 => mzedCling8 A Z
  | 7 => mzedCling8 A Z
  | 8 => mzedCling8 A Z
  | 9 => mzedCling16 A Z
  | 10 => mzedCling16 A Z
  | 11 => mzedCling16 A Z
  | 12 => mzedCling16 A Z
  | 13 => mzedCling16 A Z
  | 14 => mzedCling16 A Z
  | 15 => mzedCling16 A Z
  | 16 => mzedCling16 A Z
  | _ => none

/-- conversion.c:88-119 `mzed_cling(A,Z)`, `A` given. -/
def mzedCling? (A : Mzed) (Z : Slice) : Option Mzed := mzedClingDispatch (mzedSetUi A 0#64) Z
/-- conversion.c:88-119 `mzed_cling(NULL,Z)`. -/
def mzedClingNew? (Z : Slice) : Option Mzed := mzedClingDispatch (mzedInit Z.ff Z.fid Z.nrows Z.ncols) Z

end M4rie
