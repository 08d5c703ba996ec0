import Verif.Model.Mzed

/-!
# The part of the M4RI interface used by M4RIE

M4RI is an external library whose source is not part of the repository.  Its functions are modelled
here by their documented effect on the bit matrix: bits outside the stated region are not changed
(windows share memory with their parent).
-/

namespace M4rie

/-- the word whose bit `k < n` is `f k` -/
def wordOfBits (f : Nat → Bool) : Nat → Word
  | 0 => 0#64
  | n + 1 => wordOfBits f n ^^^ (if f n then twoPow n else 0#64)

/-- bit `p` of row `i` -/
def bitAt (words : Nat → Nat → Word) (i p : Nat) : Bool := (words i (p / 64)).getLsbD (p % 64)

/-- the memory with given bits -/
def ofBits (g : Nat → Nat → Bool) : Nat → Nat → Word :=
  fun i b => wordOfBits (fun k => g i (64 * b + k)) 64

/-- `for(i=0; i<n; i++) s = f i s` -/
def forN {σ : Type} (f : Nat → σ → σ) : Nat → σ → σ
  | 0, s => s
  | n + 1, s => f n (forN f n s)

/-- M4RI `mzd_add(C,A,B)`, `nr × nc` bits. -/
def mzdAdd (nr nc : Nat) (C A B : Nat → Nat → Word) : Nat → Nat → Word :=
  ofBits fun i p => if i < nr ∧ p < nc then (bitAt A i p).xor (bitAt B i p) else bitAt C i p

/-- M4RI `mzd_copy(C,A)`. -/
def mzdCopy (nr nc : Nat) (C A : Nat → Nat → Word) : Nat → Nat → Word :=
  ofBits fun i p => if i < nr ∧ p < nc then bitAt A i p else bitAt C i p

/-- M4RI `mzd_set_ui(A,0)`. -/
def mzdClear (nr nc : Nat) (A : Nat → Nat → Word) : Nat → Nat → Word :=
  ofBits fun i p => if i < nr ∧ p < nc then false else bitAt A i p

/-- M4RI `mzd_row_swap(M,a,b)`. -/
def mzdRowSwap (nc : Nat) (M : Nat → Nat → Word) (a b : Nat) : Nat → Nat → Word :=
  ofBits fun i p => if p < nc then (if i = a then bitAt M b p else if i = b then bitAt M a p else bitAt M i p)
    else bitAt M i p

/-- M4RI `mzd_copy_row(B,i,A,j)`: the first `nc` (columns of `A`) bits. -/
def mzdCopyRow (nc : Nat) (B : Nat → Nat → Word) (r : Nat) (A : Nat → Nat → Word) (s : Nat) : Nat → Nat → Word :=
  ofBits fun i p => if i = r ∧ p < nc then bitAt A s p else bitAt B i p

/-- M4RI `mzd_col_swap_in_rows(M,a,b,start,stop)`: rows `start ≤ i < stop`. -/
def mzdColSwapInRows (M : Nat → Nat → Word) (a b start stop : Nat) : Nat → Nat → Word :=
  ofBits fun i p => if start ≤ i ∧ i < stop then
    (if p = a then bitAt M i b else if p = b then bitAt M i a else bitAt M i p) else bitAt M i p

/-- M4RI `mzd_col_swap(M,a,b)`: all `nr` rows. -/
def mzdColSwap (nr : Nat) (M : Nat → Nat → Word) (a b : Nat) : Nat → Nat → Word :=
  mzdColSwapInRows M a b 0 nr

/-- M4RI `mzd_row_add(M,src,dst)`. -/
def mzdRowAdd (nc : Nat) (M : Nat → Nat → Word) (src dst : Nat) : Nat → Nat → Word :=
  ofBits fun i p => if i = dst ∧ p < nc then (bitAt M dst p).xor (bitAt M src p) else bitAt M i p

/-- M4RI `mzd_cmp(A,B) == 0` for matrices of equal size. -/
def mzdEq (nr nc : Nat) (A B : Nat → Nat → Word) : Bool :=
  (List.range nr).all fun i => (List.range nc).all fun p => bitAt A i p == bitAt B i p

/-- M4RI `mzd_is_zero(A)`. -/
def mzdIsZero (nr nc : Nat) (A : Nat → Nat → Word) : Bool :=
  (List.range nr).all fun i => (List.range nc).all fun p => !bitAt A i p

/-- M4RI `mzd_first_zero_row(A)`: scan rows from the bottom, return 1 + index of the last non-zero
row (0 if there is none). -/
def mzdFirstZeroRow (nc : Nat) (A : Nat → Nat → Word) : Nat → Nat
  | 0 => 0
  | nr + 1 => if (List.range nc).all (fun p => !bitAt A nr p) then mzdFirstZeroRow nc A nr else nr + 1

/-- M4RI `mzd_concat(C,A,B)`: `A` is `nr × na`, `B` is `nr × nb`. -/
def mzdConcat (nr na nb : Nat) (C A B : Nat → Nat → Word) : Nat → Nat → Word :=
  ofBits fun i p => if i < nr ∧ p < na then bitAt A i p
    else if i < nr ∧ p < na + nb then bitAt B i (p - na) else bitAt C i p

/-- M4RI `mzd_stack(C,A,B)`: `A` is `ra × nc`, `B` is `rb × nc`. -/
def mzdStack (ra rb nc : Nat) (C A B : Nat → Nat → Word) : Nat → Nat → Word :=
  ofBits fun i p => if i < ra ∧ p < nc then bitAt A i p
    else if i < ra + rb ∧ p < nc then bitAt B (i - ra) p else bitAt C i p

/-- M4RI `mzd_submatrix(S,M,lowr,lowc,highr,highc)`. -/
def mzdSubmatrix (S M : Nat → Nat → Word) (lowr lowc highr highc : Nat) : Nat → Nat → Word :=
  ofBits fun i p => if i < highr - lowr ∧ p < highc - lowc then bitAt M (lowr + i) (lowc + p) else bitAt S i p

/-- M4RI `mzd_init_window(M,lowr,lowc,…)` with `lowc % 64 = 0`: row pointers are advanced by
`lowr` rows and `lowc/64` words. -/
def mzdWindow (M : Nat → Nat → Word) (lowr lowc : Nat) : Nat → Nat → Word :=
  fun i b => M (lowr + i) (lowc / 64 + b)

end M4rie
