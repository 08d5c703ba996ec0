import Verif.Model.CheckedApi
import Verif.Model.Blm

/-!
# Bilinear maps with every access checked: blm.c, mzd_ptr.c

Continues `Checked.lean`: subscripts of tables, rows, bits and arrays of matrices, M4RI's demands on dimensions and permutations, assertions.
-/

namespace M4rie.Chk

/-! ### matrices over GF(2) -/

/-- M4RI `mzd_init(nr,nc)` -/
def mNew (nr nc : Nat) : Mzd := ⟨nr, nc, zeroW⟩

/-- M4RI `mzd_write_bit(M,i,j,v)` -/
def mWrite (M : Mzd) (i j : Nat) (v : Bool) : Option Mzd :=
  (need (i < M.nrows ∧ j < M.ncols)).bind fun _ => some { M with w := mzdWriteBit M.w i j v }

/-- M4RI `mzd_read_bit(M,i,j)` -/
def mRead (M : Mzd) (i j : Nat) : Option Bool := (need (i < M.nrows ∧ j < M.ncols)).bind fun _ => some (bitAt M.w i j)

/-- `M->rows[i][b]` -/
def mWord (M : Mzd) (i b : Nat) : Option Word := (need (i < M.nrows ∧ b < (M.ncols + 63) / 64)).bind fun _ => some (M.w i b)

/-- `M->rows[i][b] = v` -/
def mPut (M : Mzd) (i b : Nat) (v : Word) : Option Mzd :=
  (need (i < M.nrows ∧ b < (M.ncols + 63) / 64)).bind fun _ => some { M with w := fun r j => if r = i ∧ j = b then v else M.w r j }

/-- M4RI `mzd_xor_bits(M,x,y,n,values)`: at most one word, inside the row -/
def mXor (M : Mzd) (x y n : Nat) (values : Word) : Option Mzd :=
  (need (x < M.nrows ∧ y + n ≤ M.ncols ∧ 1 ≤ n ∧ n ≤ 64)).bind fun _ => some { M with w := mzdXorRange M.w x y n values }

/-- M4RI `mzd_add(C,A,B)` -/
def mAdd (C A B : Mzd) : Option Mzd :=
  (need (A.nrows = B.nrows ∧ A.ncols = B.ncols ∧ C.nrows = A.nrows ∧ C.ncols = A.ncols)).bind fun _ => some { C with w := mzdAdd A.nrows A.ncols C.w A.w B.w }

/-- M4RI `mzd_mul(C,A,B,0)` -/
def mMul (C A B : Mzd) : Option Mzd :=
  (need (A.ncols = B.nrows ∧ C.nrows = A.nrows ∧ C.ncols = B.ncols)).bind fun _ => some { C with w := mzdMul A.nrows A.ncols B.ncols C.w A.w B.w }

/-- `T = mzd_init_window(F,r,0,r+c,n); mzd_mul(T,N,M,0)`: the window lies inside `F`, the dimensions fit -/
def mMulRows (F : Mzd) (r c n : Nat) (N M : Mzd) : Option Mzd :=
  (need (r + c ≤ F.nrows ∧ n ≤ F.ncols)).bind fun _ => (need (N.ncols = M.nrows ∧ c = N.nrows ∧ n = M.ncols)).bind fun _ =>
  some { F with w := mzdMulRows F.w r c N.ncols n N.w M.w }

/-! ### blm_init_crt -/

/-- `costs[d]`, blm.c:484: 17 entries -/
def cost (d : Nat) : Option Nat := (need (d < 17)).bind fun _ => some (crtCost d)

/-- blm.c:366-373: `f->rows[0][j]` for `j = width-1, ..`. -/
def rowTop (f : Mzd) : Nat → Option Nat
  | 0 => some 0
  | j + 1 => (mWord f 0 j).bind fun x => if x ≠ 0#64 then some (gf2xDeg x + 64 * j) else rowTop f j

/-- blm.c:359-374: the loop `while(ii >= d)`. -/
def modredLoop (length : Nat) (poly : Word) (d : Nat) : Nat → Mzd → Nat → Option (Mzd × Nat)
  | fuel, f, ii =>
    if ii < d then some (f, ii) else
    match fuel with
    | 0 => none
    | fuel + 1 =>
      (mXor (mNew 1 length) 0 (ii - d) (d + 1) poly).bind fun t => (mAdd f f t).bind fun f =>
      (rowTop f ((f.ncols + 63) / 64)).bind fun ii => modredLoop length poly d fuel f ii

/-- blm.c:376-377: row `j` of `A` from `f`. -/
def modredWrite (f A : Mzd) (i j : Nat) : Option Mzd :=
  (mWord f 0 (j / 64)).bind fun x => (shr x (j % 64)).bind fun y => mWrite A j i (decide (y &&& 1#64 ≠ 0#64))

/-- blm.c:342-379 `_crt_modred_mat(length,poly,d)`; `length-i-1` must not be negative. -/
def crtModredMat (length : Nat) (poly : Word) (d : Nat) : Option Mzd :=
  if poly = 0#64 then forC (fun i A => (need (i + 1 ≤ length)).bind fun _ => mWrite A i (length - i - 1) true) d (mNew d length)
  else
    forC (fun i A => (mPut (mNew 1 length) 0 (i / 64) (twoPow (i % 64))).bind fun f =>
      (modredLoop length poly d length f i).bind fun r => forC (fun j A => modredWrite r.1 A i j) (r.2 + 1) A) length (mNew d length)

/-- the local variables of `blm_init_crt` (blm.c:487-511) -/
structure CrtSt where
  F : Mzd
  G : Mzd
  r : Nat
  it : Nat → Nat

/-- blm.c:521-535 and blm.c:573-585. -/
def crtAddBlock (fn gn : Nat) (N : Mzd) (poly : Word) (d : Nat) (s : CrtSt) : Option CrtSt :=
  (crtModredMat fn poly d).bind fun MF => (cost d).bind fun c => (mMulRows s.F s.r c fn N MF).bind fun F =>
  (crtModredMat gn poly d).bind fun MG => (mMulRows s.G s.r c gn N MG).bind fun G => some { s with F := F, G := G, r := s.r + c }

/-- the conditions and subscripts of blm.c:549-568: `p_it[e]`, `irreducible_polynomials[e][1 + p_it[e]]`; the result is `some none` if the
polynomials of this degree are used up. -/
def crtNext (it : Nat → Nat) (e : Nat) : Option (Option (Word × (Nat → Nat))) :=
  if e = 0 then some none else
  (need (e < 17)).bind fun _ =>
  if it e < irredCount e then ((irredTable e)[it e]?).map fun n => some (BitVec.ofNat 64 n, setP it e (it e + 1)) else some none

/-- blm.c:549-572. -/
def crtModulus (it : Nat → Nat) (d : Nat) : Option (Word × (Nat → Nat)) :=
  (crtNext it d).bind fun
  | some s => some s
  | none => (crtNext it (d / 2)).bind fun
  | some s => (mul s.1 s.1 (d / 2 + 1)).map (·, s.2)
  | none => (crtNext it (d / 4)).bind fun
  | some s => (mul s.1 s.1 (d / 4 + 1)).bind fun q => (mul q q (d / 2 + 1)).map (·, s.2)
  | none => (crtNext it (d / 8)).bind fun
  | some s => (mul s.1 s.1 (d / 8 + 1)).bind fun q => (mul q q (d / 4 + 1)).bind fun q => (mul q q (d / 2 + 1)).map (·, s.2)
  | none => none

/-- blm.c:518-536. -/
def crtInfinity (fn gn : Nat) (p : Nat → Nat) (s : CrtSt) : Option CrtSt :=
  if p 0 ≠ 0 then (smallMapMzd? (p 0)).bind fun N => crtAddBlock fn gn N 0#64 (p 0) s else some s

/-- blm.c:543-588. -/
def crtDegree (fn gn : Nat) (p : Nat → Nat) (d : Nat) (s : CrtSt) : Option CrtSt :=
  if p d = 0 then some s else
  (smallMapMzd? d).bind fun N =>
    forC (fun _ s => (crtModulus s.it d).bind fun q => crtAddBlock fn gn N q.1 d { s with it := q.2 }) (p d) s

/-- blm.c:487-591; `m` is an `int`. -/
def blmMaps (fn gn : Nat) (p : Nat → Nat) : Option (Nat × CrtSt) :=
  (cost (p 0)).bind fun _ => (int? (blmCostCrt p)).bind fun m =>
  (crtInfinity fn gn p ⟨mNew m fn, mNew m gn, 0, fun _ => 0⟩).bind fun s =>
  (forC (fun d s => crtDegree fn gn p (d + 1) s) 16 s).map fun s => (m, s)

/-! ### _blm_finish_polymult -/

/-- blm.c:407-431: `F_T` is `fn × m`, `G_T` is `gn × m`, `C` is `m × m`, `pivots` has `m` rows; M4RI's `mzd_apply_p_left` follows `P`. -/
def finStep (env : BlmEnv) (m fn gn : Nat) (FT GT : Nat → Nat → Word) (s : FinState) : Option FinState :=
  (need (s.v < fn ∧ s.w < gn ∧ s.r < m)).bind fun _ =>
  let C := finRow ((m + 63) / 64) FT GT s.v s.w s.r s.C
  let piv := fun k => if k = s.r then (s.v, s.w) else s.piv k
  let vw := finNext fn gn s.v s.w
  if s.r + 1 = m then
    (need (permOk ⟨m, (env.ple m C).2⟩ m m)).bind fun _ =>
    some ⟨mzdApplyPLeft m m C ⟨m, (env.ple m C).2⟩, permPiv m piv (env.ple m C).2, vw.1, vw.2,
      if (env.ple m C).1 < m then (env.ple m C).1 else m, (env.ple m C).1⟩
  else some ⟨C, piv, vw.1, vw.2, s.r + 1, s.rank⟩

/-- blm.c:406-432: the loop `while(rank < m)`. -/
def finLoop (env : BlmEnv) (m fn gn : Nat) (FT GT : Nat → Nat → Word) : Nat → FinState → Option FinState
  | fuel, s =>
    if ¬ s.rank < m then some s else
    match fuel with
    | 0 => none
    | fuel + 1 => (finStep env m fn gn FT GT s).bind (finLoop env m fn gn FT GT fuel)

/-- blm.c:436-442: the rows of `C` from the pivots. -/
def finRows (m fn gn : Nat) (FT GT : Nat → Nat → Word) (piv : Nat → Nat × Nat) (C : Nat → Nat → Word) : Option (Nat → Nat → Word) :=
  forC (fun r C => (need (r < m ∧ (piv r).1 < fn ∧ (piv r).2 < gn)).bind fun _ => some (finRow ((m + 63) / 64) FT GT (piv r).1 (piv r).2 r C)) m C

/-- blm.c:455-469: row `i` of `H`. -/
def finHRow (m : Nat) (piv : Nat → Nat × Nat) (DT : Mzd) (i : Nat) (H : Mzd) : Option Mzd :=
  (forC (fun j a => if (piv j).1 + (piv j).2 = i then mWrite a 0 j true else some a) m (mNew 1 m)).bind fun a =>
  (mMul (mNew 1 H.ncols) a DT).bind fun b => forC (fun j H => (mRead b 0 j).bind fun x => mWrite H i j x) H.ncols H

/-- blm.c:382-482 `_blm_finish_polymult(ff,f)`. -/
def blmFinish (env : BlmEnv) (fuel : Nat) (ff : Option Gf2e) (m fn gn : Nat) (F G : Nat → Nat → Word) : Option Mzd :=
  (int? (fn + gn)).bind fun _ =>
  let FT := mzdTranspose m fn F
  let GT := mzdTranspose m gn G
  (finLoop env m fn gn FT GT fuel ⟨zeroW, fun _ => (0, 0), 0, 0, 0, 0⟩).bind fun s =>
  (finRows m fn gn FT GT s.piv s.C).bind fun C =>
  (forC (fun i H => finHRow m s.piv ⟨m, m, mzdTranspose m m (env.inv m C)⟩ i H) (fn + gn - 1) (mNew (fn + gn - 1) m)).bind fun H =>
  match ff with
  | none => some H
  | some ff => (crtModredMat H.nrows ff.minpoly ff.degree).bind fun N => mMul (mNew N.nrows H.ncols) N H

/-- blm.c:43-63 `_blm_djb_compile(f)`. -/
def blmDjbCompile (dbg : Bool) (env : BlmEnv) (f : Blm) : Option Blm :=
  (assert? dbg (f.djb.isNone = true)).bind fun _ => some (M4rie.blmDjbCompile env f)

/-- blm.c:487-608 `blm_init_crt(ff,f_ncols,g_ncols,p,djb)`. -/
def blmInitCrt (dbg : Bool) (env : BlmEnv) (fuel : Nat) (ff : Option Gf2e) (fn gn : Nat) (p : Nat → Nat) (djb : Bool) : Option Blm :=
  (blmMaps fn gn p).bind fun q =>
  (blmFinish env fuel ff q.1 fn gn q.2.F.w q.2.G.w).bind fun H =>
  if djb then blmDjbCompile dbg env ⟨H, q.2.F, q.2.G, none⟩ else some ⟨H, q.2.F, q.2.G, none⟩

/-! ### applying a bilinear map -/

/-- M4RI `mzd_copy(W,V)`: dies if `W` is smaller -/
def pcpy (W V : Pl) : Option Pl := (need (V.nr ≤ W.nr ∧ V.nc ≤ W.nc)).bind fun _ => some { W with w := mzdCopy V.nr V.nc W.w V.w }

/-- the assertion of blm.c:7-9 and blm.c:66-68 -/
def blmAssert (dbg : Bool) (f : Blm) : Option Unit := assert? dbg (f.H.ncols = f.F.nrows ∧ f.F.nrows = f.G.nrows)

/-- blm.c:16-28: the sum of the matrices `A[j]` selected by row `i` of `F`. -/
def blmSelect (F : Mzd) (i : Nat) (A : Arr) : Option Pl :=
  forC (fun j t => (mRead F i j).bind fun b => if b = true then (A.get j).bind fun a => padd t t a else some t) F.ncols ⟨A.nr, A.nc, zeroW⟩

/-- blm.c:6-41 `_mzd_ptr_apply_blm_mzd(X,A,B,f)`. -/
def ptrApplyBlmMzd (dbg : Bool) (f : Blm) (X A B : Arr) : Option Arr :=
  (blmAssert dbg f).bind fun _ => (need (0 < A.len ∧ 0 < B.len)).bind fun _ =>
  forC (fun i X => (blmSelect f.F i A).bind fun t1 => (blmSelect f.G i B).bind fun t2 =>
    (pmul ⟨A.nr, B.nc, zeroW⟩ t1 t2).bind fun t0 =>
    forC (fun j X => (mRead f.H j i).bind fun b => if b = true then ptrAddModred none t0 X j else some X) f.H.nrows X) f.F.nrows X

/-- mzd_ptr.c:13-26: one instruction; the array `iszero` has `nrows` entries. -/
def djbStep (nrows : Nat) (V : Arr) (s : (Nat → Bool) × Arr) (o : DjbOp) : Option ((Nat → Bool) × Arr) :=
  (need (o.target < nrows)).bind fun _ => (if o.fromSource = true then V.get o.source else s.2.get o.source).bind fun src =>
  (s.2.get o.target).bind fun t =>
  if s.1 o.target = true then (pcpy t src).bind fun t => (s.2.put o.target t).bind fun W => some (fun t => if t = o.target then false else s.1 t, W)
  else (padd t t src).bind fun t => (s.2.put o.target t).bind fun W => some (s.1, W)

/-- mzd_ptr.c:5-29 `djb_apply_mzd_ptr(m,W,V)`. -/
def djbApply (nrows : Nat) (prog : List DjbOp) (W V : Arr) : Option Arr :=
  (prog.reverse.foldlM (djbStep nrows V) ((fun _ => true), W)).map (·.2)

/-- blm.c:65-101 `_mzd_ptr_apply_blm_djb(X,A,B,f)`: `t0`, `t1`, `t2` have `f->F->nrows` entries. -/
def ptrApplyBlmDjb (dbg : Bool) (f : Blm) (pf pg ph : List DjbOp) (X A B : Arr) : Option Arr :=
  (blmAssert dbg f).bind fun _ => (need (f.F.nrows = 0 ∨ (0 < A.len ∧ 0 < B.len))).bind fun _ =>
  (djbApply f.F.nrows pf ⟨f.F.nrows, A.nr, A.nc, fun _ => zeroW⟩ A).bind fun t1 =>
  (djbApply f.G.nrows pg ⟨f.F.nrows, B.nr, B.nc, fun _ => zeroW⟩ B).bind fun t2 =>
  (forC (fun i t0 => (t0.get i).bind fun c => (t1.get i).bind fun a => (t2.get i).bind fun b => (pmul c a b).bind fun c => t0.put i c)
    f.F.nrows (⟨f.F.nrows, A.nr, B.nc, fun _ => zeroW⟩ : Arr)).bind fun t0 => djbApply f.H.nrows ph X t0

/-- blm.h:153-158 `_mzd_ptr_apply_blm(X,A,B,f)`. -/
def ptrApplyBlm (dbg : Bool) (f : Blm) (X A B : Arr) : Option Arr :=
  match f.djb with
  | some (pf, pg, ph) => ptrApplyBlmDjb dbg f pf pg ph X A B
  | none => ptrApplyBlmMzd dbg f X A B

/-- mzd_slice.h:706-729 `_mzd_slice_mul_blm(C,A,B,NULL)`, `C` given; `p` has 17 entries. -/
def sliceMulBlmRaw (dbg : Bool) (env : BlmEnv) (fuel : Nat) (C A B : Slice) : Option Slice :=
  if C.ff.degree > 16 then none else
  (need (C.ff.degree < 17)).bind fun _ =>
  (blmInitCrt dbg env fuel (some C.ff) C.ff.degree C.ff.degree (crtSingle C.ff.degree) true).bind fun f =>
  (ptrApplyBlm dbg f (arr C) (arr A) (arr B)).map fun X => { C with x := X.x }

/-- mzd_slice.h:744-753 `mzd_slice_mul_blm(C,A,B,NULL)`, `C` given. -/
def sliceMulBlm (dbg : Bool) (env : BlmEnv) (fuel : Nat) (C A B : Slice) : Option Slice :=
  if A.ncols ≠ B.nrows ∨ A.fid ≠ B.fid then none else
  if C.fid ≠ A.fid ∨ C.nrows ≠ A.nrows ∨ C.ncols ≠ B.ncols then none else
  (sliceSetUi C 0#64).bind fun C => sliceMulBlmRaw dbg env fuel C A B

/-- mzd_slice.h:768-778 `mzd_slice_addmul_blm(C,A,B,NULL)`. -/
def sliceAddmulBlm (dbg : Bool) (env : BlmEnv) (fuel : Nat) (C A B : Slice) : Option Slice :=
  if A.ncols ≠ B.nrows ∨ A.fid ≠ B.fid then none else
  if C.fid ≠ A.fid ∨ C.nrows ≠ A.nrows ∨ C.ncols ≠ B.ncols then none else
  (sliceInit A.ff A.fid A.nrows B.ncols).bind fun T => (sliceMulBlmRaw dbg env fuel T A B).bind fun T => sliceAdd C C T

/-- conversion.h:215-234 `_mzed_addmul_blm(C,A,B)`, `C` given. -/
def addmulBlmRaw (dbg : Bool) (env : BlmEnv) (fuel : Nat) (C A B : Mzed) : Option Mzed :=
  (sliceNew dbg A).bind fun As => (sliceNew dbg B).bind fun Bs => (sliceInit As.ff As.fid As.nrows Bs.ncols).bind fun Ts =>
  (sliceMulBlmRaw dbg env fuel Ts As Bs).bind fun Ts => (clingNew Ts).bind fun T => add C C T

/-- conversion.h:246-255 `mzed_mul_blm(C,A,B)` (`clear`), conversion.h:265-272 `mzed_addmul_blm(C,A,B)`, `C` given. -/
def mulBlm (dbg : Bool) (env : BlmEnv) (fuel : Nat) (clear : Bool) (C A B : Mzed) : Option Mzed :=
  (mulInit C A B clear).bind fun C => addmulBlmRaw dbg env fuel C A B

end M4rie.Chk
