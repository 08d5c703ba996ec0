import Verif.Model.Gf2x

/-!
# Model of `src/gf2e.h`, `src/gf2e.c`: the finite field object

Tables allocated by the C code are modelled as functions `Nat → Word` together with the
number of allocated entries (`2^degree` for `red` and the rows of `_mul`, `2*degree-1` for
`pow_gen`).  Every read or write checks the index; an out-of-range access yields `none`
(undefined behaviour), as does a failing `assert` and `m4ri_die`.
-/

namespace M4rie

/-- gf2e.h:62-72 `struct gf2e_struct`.  `mulTab = none` models `_mul == NULL`. The function
pointers `inv`, `mul` are determined by `mulTab` and are represented by `gf2eInv`, `gf2eMul?`. -/
structure Gf2e where
  /-- `degree` -/
  degree : Nat
  /-- `minpoly` -/
  minpoly : Word
  /-- `pow_gen[0 .. 2*degree-2]` -/
  powGen : Nat → Word
  /-- `red[0 .. 2^degree-1]` -/
  red : Nat → Word
  /-- `_mul[0 .. 2^degree-1][0 .. 2^degree-1]` -/
  mulTab : Option (Nat → Nat → Word)

/-- gf2e.h:50 `M4RIE_MAX_DEGREE`. -/
def maxDegree : Nat := 16

/-- gf2e.c:7-9: `for(i=0; i<=M4RIE_MAX_DEGREE; i++) if(1<<i & minpoly) degree = i;`
(`n` iterations done so far; the field was zero-initialised by calloc). -/
def initDegreeLoop (minpoly : Word) : Nat → Nat
  | 0 => 0
  | n + 1 => if twoPow n &&& minpoly ≠ 0#64 then n else initDegreeLoop minpoly n

/-- gf2e.c:7-9 after all `M4RIE_MAX_DEGREE + 1` iterations. -/
def initDegree (minpoly : Word) : Nat := initDegreeLoop minpoly (maxDegree + 1)

/-- gf2e.c:18-21: `tmp = 0; for(j=0; j<degree; j++) if(TWOPOW(j) & i) tmp ^= minpoly<<j;` -/
def redTmp (minpoly : Word) (i : Word) : Nat → Word
  | 0 => 0#64
  | j + 1 => if twoPow j &&& i ≠ 0#64 then redTmp minpoly i j ^^^ (minpoly <<< j)
             else redTmp minpoly i j

/-- gf2e.c:17-24, the loop `for(i=1; i<order; i++)` filling `red`; the argument is the number of
iterations performed.  `none`: the assertion of line 22 failed or an index was out of range. -/
def redLoop (minpoly : Word) (degree : Nat) : Nat → Option (Nat → Word)
  | 0 => some (fun _ => 0#64)
  | k + 1 =>
    (redLoop minpoly degree k).bind fun red =>
      let tmp := redTmp minpoly (BitVec.ofNat 64 (k + 1)) degree
      let slot := (tmp >>> degree).toNat
      if slot < 2 ^ degree ∧ red slot = 0#64 then
        some (fun t => if t = slot then tmp else red t)
      else none

/-- gf2e.c:31-34: `for(j=i; j>=degree; j--) if(pow_gen[i] & 1<<j) pow_gen[i] ^= minpoly<<(j-degree);`
The Nat argument counts the remaining iterations: `n+1` remaining means `j = degree+n`. -/
def powGenLoop (minpoly : Word) (degree : Nat) : Nat → Word → Word
  | 0, p => p
  | n + 1, p =>
    powGenLoop minpoly degree n
      (if p &&& twoPow (degree + n) ≠ 0#64 then p ^^^ (minpoly <<< n) else p)

/-- gf2e.c:27-35: `pow_gen[i]`, starting from `1<<i`. -/
def initPowGen (minpoly : Word) (degree i : Nat) : Word :=
  powGenLoop minpoly degree (i + 1 - degree) (twoPow i)

/-- gf2e.c:41-47: the entry `_mul[i][j]`; row 0 and column 0 are left at their calloc value 0. -/
def initMulTab (degree : Nat) (red : Nat → Word) (i j : Nat) : Word :=
  if i = 0 ∨ j = 0 then 0#64
  else
    let res := gf2xMul (BitVec.ofNat 64 i) (BitVec.ofNat 64 j) degree
    res ^^^ red (res >>> degree).toNat

/-- gf2e.c:4-54 `gf2e_init(minpoly)`. -/
def gf2eInit (minpoly : Word) : Option Gf2e :=
  let degree := initDegree minpoly
  (redLoop minpoly degree (2 ^ degree - 1)).bind fun red =>
    some { degree := degree
           minpoly := minpoly
           powGen := initPowGen minpoly degree
           red := red
           mulTab := if degree ≤ 8 then some (initMulTab degree red) else none }

/-- gf2e.h:94-96 `gf2e_inv(ff,a)`. -/
def gf2eInv (ff : Gf2e) (a : Word) : Word := gf2xInvmod a ff.minpoly ff.degree

/-- gf2e.h:102-104 `_gf2e_mul_table`, for a given table; `none` on an out-of-range index. -/
def gf2eMulTable? (ff : Gf2e) (t : Nat → Nat → Word) (a b : Word) : Option Word :=
  if a.toNat < 2 ^ ff.degree ∧ b.toNat < 2 ^ ff.degree then some (t a.toNat b.toNat) else none

/-- gf2e.h:110-113 `_gf2e_mul_arith`; `none` if `gf2x_mul` dies or `red` is read out of range. -/
def gf2eMulArith? (ff : Gf2e) (a b : Word) : Option Word :=
  (gf2xMul? a b ff.degree).bind fun res =>
    if (res >>> ff.degree).toNat < 2 ^ ff.degree then
      some (res ^^^ ff.red (res >>> ff.degree).toNat)
    else none

/-- gf2e.h:119-124 `gf2e_mul(ff,a,b)`. -/
def gf2eMul? (ff : Gf2e) (a b : Word) : Option Word :=
  match ff.mulTab with
  | some t => gf2eMulTable? ff t a b
  | none => gf2eMulArith? ff a b

/-- `gf2e_mul` as a total function (value 0 where the C code is undefined). -/
def gf2eMul (ff : Gf2e) (a b : Word) : Word := (gf2eMul? ff a b).getD 0#64

/-- gf2e.h:132-157 `gf2e_degree_to_w`; `none` models `m4ri_die`. -/
def degreeToW? (degree : Nat) : Option Nat :=
  match degree with
  | 2 => some 2
  | 3 | 4 => some 4
  | 5 | 6 | 7 | 8 => some 8
  | 9 | 10 | 11 | 12 | 13 | 14 | 15 | 16 => some 16
  | _ => none

/-- `gf2e_degree_to_w` as a value (0 where the C code dies, as in `return 0`). -/
def degreeToW (degree : Nat) : Nat := (degreeToW? degree).getD 0

/-- gf2e.h:176-189, one lane of the switch: `gf2e_mul(ff, a, (i>>s)&mask_w)<<s`. -/
def t16Lane? (ff : Gf2e) (w : Nat) (a i : Word) (s : Nat) : Option Word :=
  (gf2eMul? ff a ((i >>> s) &&& (twoPow w - 1#64))).map (fun (v : Word) => v <<< s)

/-- gf2e.h:175-190: the table entry `mul[i]`: lanes at `s = 0, w, 2w, ... < 16` are or-ed together
(8 lanes for w=2, 4 for w=4, 2 for w=8, 1 for w=16, exactly the terms written out in C). -/
def t16Entry? (ff : Gf2e) (w : Nat) (a i : Word) : Nat → Option Word
  | 0 => some 0#64
  | k + 1 => (t16Entry? ff w a i k).bind fun acc =>
             (t16Lane? ff w a i (k * w)).bind fun v => some (acc ||| v)

/-- gf2e.h:166-192 `gf2e_t16_init(ff,a)`, entry `i`. -/
def t16? (ff : Gf2e) (a : Word) (i : Nat) : Option Word :=
  (degreeToW? ff.degree).bind fun w => t16Entry? ff w a (BitVec.ofNat 64 i) (16 / w)

end M4rie
