/-!
# Model of `src/gf2x.h`: arithmetic in GF(2)[X] on 64-bit words

`word` is modelled by `BitVec 64`.  All shifts, masks and loops are those of the C code.
-/

namespace M4rie

/-- `word` of M4RI: `uint64_t`. -/
abbrev Word := BitVec 64

/-- `__M4RI_TWOPOW(i)` of M4RI: `(word)1 << i`. -/
def twoPow (i : Nat) : Word := (1#64) <<< i

/-- gf2x.h:35 `__M4RIE_1tF(X)`: `~((X)-1)`. -/
def oneToF (x : Word) : Word := ~~~(x - 1#64)

/-- One `case` body of the fall-through switch, gf2x.h:47-78:
`res ^= __M4RIE_1tF((a & __M4RI_TWOPOW(i)) >> i) & (b << i)`. -/
def gf2xMulStep (a b : Word) (i : Nat) (res : Word) : Word :=
  res ^^^ (oneToF ((a &&& twoPow i) >>> i) &&& (b <<< i))

/-- The switch of gf2x.h:46-79 entered at `case d`, falling through to `case 1`:
executes the step for `i = d-1, d-2, ..., 0`. -/
def gf2xMulFrom (a b : Word) : Nat → Word → Word
  | 0, res => res
  | d + 1, res => gf2xMulFrom a b d (gf2xMulStep a b d res)

/-- gf2x.h:43-84 `gf2x_mul(a,b,d)`; `none` models the `default:` branch (`m4ri_die`). -/
def gf2xMul? (a b : Word) (d : Nat) : Option Word :=
  if 1 ≤ d ∧ d ≤ 32 then some (gf2xMulFrom a b d 0#64) else none

/-- `gf2x_mul` where the degree is known to be in range (callers pass `ff->degree`). -/
def gf2xMul (a b : Word) (d : Nat) : Word := gf2xMulFrom a b d 0#64

/-- One line of `gf2x_deg`, gf2x.h:93-98: `if (a & mask) != 0 { degree += s; a >>= s; }`. -/
def gf2xDegStep (mask : Word) (s : Nat) (p : Nat × Word) : Nat × Word :=
  if p.2 &&& mask ≠ 0#64 then (p.1 + s, p.2 >>> s) else p

/-- gf2x.h:91-100 `gf2x_deg(a)`. -/
def gf2xDeg (a : Word) : Nat :=
  (gf2xDegStep 0x2#64 1
   (gf2xDegStep 0xc#64 2
    (gf2xDegStep 0xf0#64 4
     (gf2xDegStep 0xff00#64 8
      (gf2xDegStep 0xffff0000#64 16
       (gf2xDegStep 0xffffffff00000000#64 32 (0, a))))))).1

/-- Loop of gf2x.h:138-142 (`gf2x_divmod`).  The first argument is the number of remaining
iterations, so `deg_a = degb + n` when `n + 1` iterations remain.  State: `(a, res)`. -/
def gf2xDivLoop (b : Word) (degb : Nat) : Nat → Word × Word → Word × Word
  | 0, s => s
  | n + 1, (a, res) =>
      let mask := oneToF (a >>> (degb + n))
      gf2xDivLoop b degb n (a ^^^ (mask &&& (b <<< n)), res ||| (mask &&& twoPow n))

/-- gf2x.h:134-145 `gf2x_divmod(a,b,&rem)`, returned as `(quotient, remainder)`.
`for(deg_a = deg(a); deg_a >= deg_b; deg_a--)` runs `deg(a)+1-deg(b)` times. -/
def gf2xDivmod (a b : Word) : Word × Word :=
  let s := gf2xDivLoop b (gf2xDeg b) (gf2xDeg a + 1 - gf2xDeg b) (a, 0#64)
  (s.2, s.1)

/-- gf2x.h:106-116 `gf2x_div`: the same loop, returning only `res`. -/
def gf2xDiv (a b : Word) : Word :=
  (gf2xDivLoop b (gf2xDeg b) (gf2xDeg a + 1 - gf2xDeg b) (a, 0#64)).2

/-- Loop of gf2x.h:124-126 (`gf2x_mod`), without quotient accumulator. -/
def gf2xModLoop (b : Word) (degb : Nat) : Nat → Word → Word
  | 0, a => a
  | n + 1, a => gf2xModLoop b degb n (a ^^^ (oneToF (a >>> (degb + n)) &&& (b <<< n)))

/-- gf2x.h:122-128 `gf2x_mod`. -/
def gf2xMod (a b : Word) : Word :=
  gf2xModLoop b (gf2xDeg b) (gf2xDeg a + 1 - gf2xDeg b) a

/-- Loop of gf2x.h:162-167 (`gf2x_invmod`), with a fuel argument: the result is `none` when
the `while (b != 0)` loop is still running after `fuel` iterations, or when `gf2x_mul` dies. -/
def gf2xInvLoop (d : Nat) : Nat → (a b x lastx y lasty : Word) → Option Word
  | fuel, a, b, x, lastx, y, lasty =>
    if b = 0#64 then some lastx
    else match fuel with
      | 0 => none
      | fuel + 1 =>
        let qr := gf2xDivmod a b
        (gf2xMul? qr.1 x d).bind fun px =>
        (gf2xMul? qr.1 y d).bind fun py =>
        gf2xInvLoop d fuel b qr.2 (lastx ^^^ px) x (lasty ^^^ py) y

/-- gf2x.h:152-169 `gf2x_invmod(a,b,d)` with explicit fuel. -/
def gf2xInvmodFuel (fuel : Nat) (a b : Word) (d : Nat) : Option Word :=
  gf2xInvLoop d fuel a b 0#64 1#64 1#64 0#64

/-- `gf2x_invmod` as a value.  66 iterations always suffice for degrees up to 32, see
`M4rie.gf2xInvmodFuel_spec`, so the fuel is not observable. -/
def gf2xInvmod (a b : Word) (d : Nat) : Word := (gf2xInvmodFuel 66 a b d).getD 0#64

end M4rie
