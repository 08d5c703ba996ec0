import Verif.Model.BlmTables
import Verif.Model.IrredTables
import Verif.Model.Perm

/-!
# Bilinear maps over GF(2): blm.c, blm.h, mzd_ptr.c

`Option` results: `none` models `m4ri_die`, an out-of-bounds access or a loop that is still running when the `fuel` argument is
used up.
-/

namespace M4rie

/-- M4RI `mzd_t`: dimensions and words. -/
structure Mzd where
  nrows : Nat
  ncols : Nat
  w : Nat → Nat → Word

/-- the zero matrix of M4RI `mzd_init` -/
def zeroW : Nat → Nat → Word := fun _ _ => 0#64

/-- M4RI `mzd_xor_bits(M,x,y,n,values)` (contract): the `n` low bits of `values` are added to row `x`, columns `y..y+n-1`. -/
def mzdXorRange (M : Nat → Nat → Word) (x y n : Nat) (values : Word) : Nat → Nat → Word :=
  ofBits fun i p => if i = x ∧ y ≤ p ∧ p < y + n then (bitAt M i p).xor (values.getLsbD (p - y)) else bitAt M i p

/-- M4RI `mzd_transpose(NULL,A)` (contract), `A` being `nr × nc`. -/
def mzdTranspose (nr nc : Nat) (A : Nat → Nat → Word) : Nat → Nat → Word :=
  ofBits fun i p => if i < nc ∧ p < nr then bitAt A p i else false

/-- M4RI `mzd_mul(T,N,M,0)` where `T` is the window of the rows `r..r+c-1` of `F`, `N` is `c × k` and `M` is `k × n`. -/
def mzdMulRows (F : Nat → Nat → Word) (r c k n : Nat) (N M : Nat → Nat → Word) : Nat → Nat → Word :=
  ofBits fun i p => if r ≤ i ∧ i < r + c ∧ p < n then xorRange (fun l => bitAt N (i - r) l && bitAt M l p) k else bitAt F i p

/-! ### crt_init -/

/-- the array `costs` (blm.c:484) read at an index known to be in range -/
def crtCost (d : Nat) : Nat := crtCosts.getD d 0

/-- `p[d] = v` -/
def setP (p : Nat → Nat) (d v : Nat) : Nat → Nat := fun e => if e = d then v else p e

/-- blm.h:72-77 `blm_cost_crt(p)`, also blm.c:139-141 and blm.c:497-499: `costs[p[0]] + costs[1]*p[1] + .. + costs[16]*p[16]`. -/
def blmCostCrt (p : Nat → Nat) : Nat := forN (fun d c => c + crtCost (d + 1) * p (d + 1)) 16 (crtCost (p 0))

/-- blm.c:121-131: the loop `while (deg_have < deg_need)` of `crt_init`.  `ceil(deg_diff/(double)deg_poly)` is computed exactly.
`none`: `irreducible_polynomials[17]` does not exist. -/
def crtLoop (need : Int) : Nat → Nat → Nat → (Nat → Nat) → Option ((Nat → Nat) × Nat)
  | fuel, have_, degPoly, p =>
    if ¬ ((have_ : Int) < need) then some (p, have_) else
    if 16 < degPoly then none else
    match fuel with
    | 0 => none
    | fuel + 1 =>
      if (have_ : Int) + degPoly * irredCount degPoly < need then
        crtLoop need fuel (have_ + degPoly * irredCount degPoly) (degPoly + 1) (setP p degPoly (irredCount degPoly))
      else
        let diff := (need - have_).toNat
        let n := (diff + degPoly - 1) / degPoly
        crtLoop need fuel (have_ + degPoly * n) (degPoly + 1) (setP p degPoly n)

/-- blm.c:113-142: the scheme examined for `omega`, and its cost. -/
def crtCandidate (fLen gLen omega : Nat) : Option ((Nat → Nat) × Nat) :=
  let need : Int := fLen + gLen - 1 - omega
  (crtLoop need 17 0 1 (fun d => if d = 0 then omega else 0)).bind fun (p, have_) =>
    let diff := (have_ - need).toNat
    let p := if diff ≠ 0 ∧ 0 < p diff then setP p diff (p diff - 1) else p
    some (p, blmCostCrt p)

/-- blm.c:106-151 `crt_init(f_len,g_len)`.  (`f_len*g_len` is computed without overflow.) -/
def crtInit? (fLen gLen : Nat) : Option (Nat → Nat) :=
  (forNM (fun omega (s : (Nat → Nat) × Nat) => (crtCandidate fLen gLen omega).bind fun (p, c) =>
    some (if c < s.2 then (p, c) else s)) 8 (fun _ => 0, fLen * gLen)).map (·.1)

/-! ### blm_init_crt -/

/-- the matrix `_small_multiplication_map(d)` (blm.c:153-334) -/
def smallMapMzd? (d : Nat) : Option Mzd :=
  (smallMap? d).map fun l => ⟨l.length, d, fun i j => if j = 0 then BitVec.ofNat 64 (l.getD i 0) else 0#64⟩

/-- blm.c:366-373: `ii = gf2x_deg(f)` for the row `f` of `width` words. -/
def rowTop : Nat → (Nat → Word) → Nat
  | 0, _ => 0
  | j + 1, f => if f j ≠ 0#64 then gf2xDeg (f j) + 64 * j else rowTop j f

/-- blm.c:359-374: the loop `while(ii >= d)`. -/
def modredLoop (length : Nat) (poly : Word) (d : Nat) : Nat → (Nat → Nat → Word) → Nat → Option ((Nat → Nat → Word) × Nat)
  | fuel, f, ii =>
    if ii < d then some (f, ii) else
    match fuel with
    | 0 => none
    | fuel + 1 =>
      if ¬ ii < length then none else
      let f := mzdAdd 1 length f f (mzdXorRange zeroW 0 (ii - d) (d + 1) poly)
      modredLoop length poly d fuel f (rowTop ((length + 63) / 64) (f 0))

/-- blm.c:342-379 `_crt_modred_mat(length,poly,d)`. -/
def crtModredMat? (length : Nat) (poly : Word) (d : Nat) : Option (Nat → Nat → Word) :=
  if poly = 0#64 then
    if d ≤ length then some (forN (fun i A => mzdWriteBit A i (length - i - 1) true) d zeroW) else none
  else
    forNM (fun i A =>
      (modredLoop length poly d length (fun r j => if r = 0 ∧ j = i / 64 then twoPow (i % 64) else 0#64) i).bind fun (f, ii) =>
        some (forN (fun j A => mzdWriteBit A j i (decide ((f 0 (j / 64) >>> (j % 64)) &&& 1#64 ≠ 0#64))) (ii + 1) A)) length zeroW

/-- the local variables of `blm_init_crt`: the matrices `F`, `G`, the next row `r` and the iterators `p_it` -/
structure CrtState where
  F : Nat → Nat → Word
  G : Nat → Nat → Word
  r : Nat
  it : Nat → Nat

/-- blm.c:521-535 and blm.c:573-585: the rows of `F` and `G` belonging to one modulus. -/
def crtAddBlock? (fn gn : Nat) (N : Mzd) (poly : Word) (d : Nat) (s : CrtState) : Option CrtState :=
  (crtModredMat? fn poly d).bind fun MF => (crtModredMat? gn poly d).bind fun MG =>
    some { s with F := mzdMulRows s.F s.r (crtCost d) d fn N.w MF, G := mzdMulRows s.G s.r (crtCost d) d gn N.w MG, r := s.r + crtCost d }

/-- the next unused irreducible polynomial of degree `e`; `none`: there is none -/
def crtNext? (it : Nat → Nat) (e : Nat) : Option (Word × (Nat → Nat)) :=
  if e ≠ 0 ∧ it e < irredCount e then ((irredTable e)[it e]?).map fun n => (BitVec.ofNat 64 n, setP it e (it e + 1)) else none

/-- blm.c:549-572: the choice of the modulus of degree `d`: irreducible, or a square, fourth or eighth power. -/
def crtModulus? (it : Nat → Nat) (d : Nat) : Option (Word × (Nat → Nat)) :=
  match crtNext? it d with
  | some s => some s
  | none =>
  match crtNext? it (d / 2) with
  | some (q, it) => (gf2xMul? q q (d / 2 + 1)).map (·, it)
  | none =>
  match crtNext? it (d / 4) with
  | some (q, it) => (gf2xMul? q q (d / 4 + 1)).bind fun q => (gf2xMul? q q (d / 2 + 1)).map (·, it)
  | none =>
  match crtNext? it (d / 8) with
  | some (q, it) => (gf2xMul? q q (d / 8 + 1)).bind fun q => (gf2xMul? q q (d / 4 + 1)).bind fun q => (gf2xMul? q q (d / 2 + 1)).map (·, it)
  | none => none

/-- blm.c:518-536: the point `(x-infinity)^p[0]`. -/
def crtInfinity? (fn gn : Nat) (p : Nat → Nat) (s : CrtState) : Option CrtState :=
  if p 0 ≠ 0 then (smallMapMzd? (p 0)).bind fun N => crtAddBlock? fn gn N 0#64 (p 0) s else some s

/-- blm.c:543-588: the `p[d]` moduli of degree `d`. -/
def crtDegree? (fn gn : Nat) (p : Nat → Nat) (d : Nat) (s : CrtState) : Option CrtState :=
  if p d = 0 then some s else
  (smallMapMzd? d).bind fun N =>
    forNM (fun _ s => (crtModulus? s.it d).bind fun (q, it) => crtAddBlock? fn gn N q d { s with it := it }) (p d) s

/-- blm.c:487-591: the first part of `blm_init_crt`, computing the matrices `F` and `G` (with `m` rows). -/
def blmMaps? (fn gn : Nat) (p : Nat → Nat) : Option (Nat × CrtState) :=
  if 16 < p 0 then none else
  (crtInfinity? fn gn p ⟨zeroW, zeroW, 0, fun _ => 0⟩).bind fun s =>
  (forNM (fun d s => crtDegree? fn gn p (d + 1) s) 16 s).map fun s => (blmCostCrt p, s)

/-! ### _blm_finish_polymult -/

/-- an instruction of a M4RI `djb_t`: add (or copy) source `source` (if `fromSource`) or target `source` to target `target` -/
structure DjbOp where
  target : Nat
  source : Nat
  fromSource : Bool

/-- What `blm.c` uses of M4RI: `mzd_ple` on an `m × m` matrix (rank and row permutation), `mzd_inv_m4ri` and `djb_compile`. -/
structure BlmEnv where
  ple : Nat → (Nat → Nat → Word) → Nat × (Nat → Nat)
  inv : Nat → (Nat → Nat → Word) → Nat → Nat → Word
  djb : Nat → Nat → (Nat → Nat → Word) → List DjbOp

/-- the local variables of the search for a matrix of full rank; `pivots` holds the pairs `(v,w)` -/
structure FinState where
  C : Nat → Nat → Word
  piv : Nat → Nat × Nat
  v : Nat
  w : Nat
  r : Nat
  rank : Nat

/-- the row `F_T[v] & G_T[w]` written to row `r` of `C` (blm.c:408-409, blm.c:440-441) -/
def finRow (width : Nat) (FT GT : Nat → Nat → Word) (v w r : Nat) (C : Nat → Nat → Word) : Nat → Nat → Word :=
  fun i j => if i = r ∧ j < width then FT v j &&& GT w j else C i j

/-- `mzd_apply_p_left(pivots,P)`: the same row swaps on the pairs (simplified: a row of `pivots` is a pair). -/
def permPiv (m : Nat) (piv : Nat → Nat × Nat) (P : Nat → Nat) : Nat → Nat × Nat :=
  forN (fun i q k => if k = i then q (P i) else if k = P i then q i else q k) m piv

/-- blm.c:414-420: the next pair. -/
def finNext (fn gn v w : Nat) : Nat × Nat :=
  if w + 1 = gn then
    let v := if v + 1 = fn then 0 else v + 1
    (v, v)
  else (v, w + 1)

/-- blm.c:407-431: one iteration of the search.  `none`: rows outside `F_T` or `G_T` are read. -/
def finStep (env : BlmEnv) (m fn gn : Nat) (FT GT : Nat → Nat → Word) (s : FinState) : Option FinState :=
  if ¬ (s.v < fn ∧ s.w < gn) then none else
  let C := finRow ((m + 63) / 64) FT GT s.v s.w s.r s.C
  let piv := fun k => if k = s.r then (s.v, s.w) else s.piv k
  let vw := finNext fn gn s.v s.w
  if s.r + 1 = m then
    let (rank, P) := env.ple m C
    some ⟨mzdApplyPLeft m m C ⟨m, P⟩, permPiv m piv P, vw.1, vw.2, if rank < m then rank else m, rank⟩
  else some ⟨C, piv, vw.1, vw.2, s.r + 1, s.rank⟩

/-- blm.c:406-432: the loop `while(rank < m)`. -/
def finLoop (env : BlmEnv) (m fn gn : Nat) (FT GT : Nat → Nat → Word) : Nat → FinState → Option FinState
  | fuel, s =>
    if ¬ s.rank < m then some s else
    match fuel with
    | 0 => none
    | fuel + 1 => (finStep env m fn gn FT GT s).bind (finLoop env m fn gn FT GT fuel)

/-- blm.c:382-482 `_blm_finish_polymult(ff,f)`: the matrix `H`.  `F` and `G` have `m` rows and `fn`, `gn` columns. -/
def blmFinish? (env : BlmEnv) (fuel : Nat) (ff : Option Gf2e) (m fn gn : Nat) (F G : Nat → Nat → Word) : Option Mzd :=
  let FT := mzdTranspose m fn F
  let GT := mzdTranspose m gn G
  (finLoop env m fn gn FT GT fuel ⟨zeroW, fun _ => (0, 0), 0, 0, 0, 0⟩).bind fun s =>
    let C := forN (fun r C => finRow ((m + 63) / 64) FT GT (s.piv r).1 (s.piv r).2 r C) m s.C
    let DT := mzdTranspose m m (env.inv m C)
    let cn := fn + gn - 1
    let H := forN (fun i H =>
      let a := forN (fun j a => if (s.piv j).1 + (s.piv j).2 = i then mzdWriteBit a 0 j true else a) m zeroW
      let b := mzdMul 1 m m zeroW a DT
      forN (fun j H => mzdWriteBit H i j (bitAt b 0 j)) m H) cn zeroW
    match ff with
    | none => some ⟨cn, m, H⟩
    | some ff => (crtModredMat? cn ff.minpoly ff.degree).map fun N => ⟨ff.degree, m, mzdMul ff.degree cn m zeroW N H⟩

/-- blm.h:51-60 `blm_t`; the DJB maps are `none` if they have not been compiled. -/
structure Blm where
  H : Mzd
  F : Mzd
  G : Mzd
  djb : Option (List DjbOp × List DjbOp × List DjbOp)

/-- blm.c:43-63 `_blm_djb_compile(f)`: the maps for `F`, `G` (shared if the matrices are equal) and `H`. -/
def blmDjbCompile (env : BlmEnv) (f : Blm) : Blm :=
  let pf := env.djb f.F.nrows f.F.ncols f.F.w
  let pg := if f.F.nrows = f.G.nrows ∧ f.F.ncols = f.G.ncols ∧ mzdEq f.F.nrows f.F.ncols f.F.w f.G.w = true then pf
    else env.djb f.G.nrows f.G.ncols f.G.w
  { f with djb := some (pf, pg, env.djb f.H.nrows f.H.ncols f.H.w) }

/-- blm.c:487-608 `blm_init_crt(ff,f_ncols,g_ncols,p,djb)`. -/
def blmInitCrt? (env : BlmEnv) (fuel : Nat) (ff : Option Gf2e) (fn gn : Nat) (p : Nat → Nat) (djb : Bool) : Option Blm :=
  (blmMaps? fn gn p).bind fun (m, s) =>
  (blmFinish? env fuel ff m fn gn s.F s.G).map fun H =>
    let f : Blm := ⟨H, ⟨m, fn, s.F⟩, ⟨m, gn, s.G⟩, none⟩
    if djb then blmDjbCompile env f else f

/-! ### applying a bilinear map -/

/-- blm.c:16-28: the sum of the matrices `A[j]` selected by row `i` of `F`. -/
def blmSelect (F : Mzd) (i nr nc : Nat) (A : Nat → Nat → Nat → Word) : Nat → Nat → Word :=
  forN (fun j t => if bitAt F.w i j then mzdAdd nr nc t t (A j) else t) F.ncols zeroW

/-- blm.c:6-41 `_mzd_ptr_apply_blm_mzd(X,A,B,f)`; the `A[j]` are `m × k`, the `B[j]` are `k × n`.  Failing assertions give `none`. -/
def ptrApplyBlmMzd? (f : Blm) (m k n : Nat) (X A B : Nat → Nat → Nat → Word) : Option (Nat → Nat → Nat → Word) :=
  if ¬ (f.H.ncols = f.F.nrows ∧ f.F.nrows = f.G.nrows) then none else
  forNM (fun i X =>
    let t0 := mzdMul m k n zeroW (blmSelect f.F i m k A) (blmSelect f.G i k n B)
    forNM (fun j X => if bitAt f.H.w j i then ptrAddModred none m n t0 X j else some X) f.H.nrows X) f.F.nrows X

/-- mzd_ptr.c:13-26: one instruction; the state is `(iszero, W)`. -/
def djbStep (nr nc : Nat) (V : Nat → Nat → Nat → Word) (s : (Nat → Bool) × (Nat → Nat → Nat → Word)) (o : DjbOp) :
    (Nat → Bool) × (Nat → Nat → Nat → Word) :=
  let src := if o.fromSource then V o.source else s.2 o.source
  if s.1 o.target then (fun t => if t = o.target then false else s.1 t, setSlice s.2 o.target (mzdCopy nr nc (s.2 o.target) src))
  else (s.1, setSlice s.2 o.target (mzdAdd nr nc (s.2 o.target) (s.2 o.target) src))

/-- mzd_ptr.c:5-29 `djb_apply_mzd_ptr(m,W,V)`: the instructions from the last to the first; all matrices are `nr × nc`. -/
def djbApplyPtr (nr nc : Nat) (prog : List DjbOp) (W V : Nat → Nat → Nat → Word) : Nat → Nat → Nat → Word :=
  (prog.reverse.foldl (djbStep nr nc V) (fun _ => true, W)).2

/-- blm.c:65-101 `_mzd_ptr_apply_blm_djb(X,A,B,f)`. -/
def ptrApplyBlmDjb? (f : Blm) (pf pg ph : List DjbOp) (m k n : Nat) (X A B : Nat → Nat → Nat → Word) : Option (Nat → Nat → Nat → Word) :=
  if ¬ (f.H.ncols = f.F.nrows ∧ f.F.nrows = f.G.nrows) then none else
  let t1 := djbApplyPtr m k pf (fun _ => zeroW) A
  let t2 := djbApplyPtr k n pg (fun _ => zeroW) B
  let t0 := fun i => mzdMul m k n zeroW (t1 i) (t2 i)
  some (djbApplyPtr m n ph X t0)

/-- blm.h:153-158 `_mzd_ptr_apply_blm(X,A,B,f)`. -/
def ptrApplyBlm? (f : Blm) (m k n : Nat) (X A B : Nat → Nat → Nat → Word) : Option (Nat → Nat → Nat → Word) :=
  match f.djb with
  | some (pf, pg, ph) => ptrApplyBlmDjb? f pf pg ph m k n X A B
  | none => ptrApplyBlmMzd? f m k n X A B

/-- the scheme with a single modulus of degree `d` (mzd_slice.h:716-717) -/
def crtSingle (d : Nat) : Nat → Nat := fun e => if e = d then 1 else 0

/-- mzd_slice.h:706-729 `_mzd_slice_mul_blm(C,A,B,f)`; `f = none` is `f == NULL`. -/
def mzdSliceMulBlmRaw? (env : BlmEnv) (fuel : Nat) (C A B : Slice) (f : Option Blm) : Option Slice :=
  let f? := match f with
    | some f => some f
    | none => if C.ff.degree > 16 then none else blmInitCrt? env fuel (some C.ff) C.ff.degree C.ff.degree (crtSingle C.ff.degree) true
  f?.bind fun f => (ptrApplyBlm? f A.nrows A.ncols B.ncols C.x A.x B.x).map fun x => { C with x := x }

/-- mzd_slice.h:744-753 `mzd_slice_mul_blm(C,A,B,f)`, `C != NULL`. -/
def mzdSliceMulBlm? (env : BlmEnv) (fuel : Nat) (C A B : Slice) (f : Option Blm) : Option Slice :=
  if A.ncols ≠ B.nrows ∨ A.fid ≠ B.fid then none else
  if C.fid ≠ A.fid ∨ C.nrows ≠ A.nrows ∨ C.ncols ≠ B.ncols then none else
  mzdSliceMulBlmRaw? env fuel (mzdSliceSetUi C 0#64) A B f

/-- mzd_slice.h:768-778 `mzd_slice_addmul_blm(C,A,B,f)`. -/
def mzdSliceAddmulBlm? (env : BlmEnv) (fuel : Nat) (C A B : Slice) (f : Option Blm) : Option Slice :=
  if A.ncols ≠ B.nrows ∨ A.fid ≠ B.fid then none else
  if C.fid ≠ A.fid ∨ C.nrows ≠ A.nrows ∨ C.ncols ≠ B.ncols then none else
  (mzdSliceMulBlmRaw? env fuel (mzdSliceInit A.ff A.fid A.nrows B.ncols) A B f).bind fun T => mzdSliceAdd? C C T

/-- conversion.h:215-234 `_mzed_addmul_blm(C,A,B)`, `C != NULL`. -/
def mzedAddmulBlmRaw? (env : BlmEnv) (fuel : Nat) (C A B : Mzed) : Option Mzed :=
  (mzedSliceNew? A).bind fun As => (mzedSliceNew? B).bind fun Bs =>
  (mzdSliceMulBlmRaw? env fuel (mzdSliceInit As.ff As.fid As.nrows Bs.ncols) As Bs none).bind fun Ts =>
  (mzedClingNew? Ts).bind fun T => mzedAdd? C C T

/-- conversion.h:246-255 `mzed_mul_blm(C,A,B)`, `C != NULL`. -/
def mzedMulBlm? (env : BlmEnv) (fuel : Nat) (C A B : Mzed) : Option Mzed :=
  if A.ncols ≠ B.nrows ∨ A.fid ≠ B.fid then none else
  if C.fid ≠ A.fid ∨ C.nrows ≠ A.nrows ∨ C.ncols ≠ B.ncols then none else
  mzedAddmulBlmRaw? env fuel (mzedSetUi C 0#64) A B

/-- conversion.h:265-272 `mzed_addmul_blm(C,A,B)`. -/
def mzedAddmulBlm? (env : BlmEnv) (fuel : Nat) (C A B : Mzed) : Option Mzed :=
  if A.ncols ≠ B.nrows ∨ A.fid ≠ B.fid then none else
  if C.fid ≠ A.fid ∨ C.nrows ≠ A.nrows ∨ C.ncols ≠ B.ncols then none else
  mzedAddmulBlmRaw? env fuel C A B

end M4rie
