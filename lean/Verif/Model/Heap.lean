import Verif.Spec.Heap
/-!
# What the library does with objects

The routines of the library that create, release, keep or return objects, as programs of the language of `Spec/Heap.lean`.

Simplifications, common to all routines:

* Contents, sizes and fields are dropped: a test on them is `either`, a loop over them is `loop`; reading or writing a matrix is `use`.
  `assert`s are dropped (a build without them continues, so this is the larger set of executions); `m4ri_die` is `die`.
* The objects are whole structures: `mzed_init` creates one object although it allocates several blocks, and a structure stored into another
  one (a `djb_t` into a `blm_t`, a slice into an array) becomes a part of it (`absorb`).
* `mzd_t**` arguments that are members of an object are not passed; the caller `use`s the object instead.
* The `finite_field` member of matrices is not tracked, except in `_mzd_poly_addmul_ext1`, which creates a field of its own: there the
  matrices over it are created as windows of it, so that releasing the field first would be a fault.
* M4RI: `mzd_init`, `mzd_copy(NULL, ..)`, `mzd_transpose(NULL, ..)`, `mzd_mul(NULL, ..)`, `mzd_inv_m4ri(NULL, ..)`, `mzp_init`, `djb_compile` create,
  `mzd_free`, `mzd_free_window`, `mzp_free`, `mzp_free_window`, `djb_free` release; everything else only uses its arguments.

The parameter `fix` of the table selects the code as it is (`false`) or the code with three repairs (`true`), each a missing release or a
dropped result: `_crt_modred_mat` (blm.c:352-353, never released), `_blm_finish_polymult` (blm.c:449, never released) and `_mzd_poly_addmul_crt`
(mzd_poly.h:228, result dropped).
-/
namespace M4rie.Res

/-- names of the routines -/
inductive FName
  | mzed_add | _mzed_add | _mzed_mul_init | mzed_mul | mzed_addmul | _mzed_mul | _mzed_addmul | mzed_mul_naive | mzed_addmul_naive
  | _mzed_mul_naive | mzed_mul_scalar | mzed_copy | mzed_concat | mzed_stack | mzed_submatrix | mzed_set_ui
  | mzed_mul_strassen | mzed_addmul_strassen | _mzed_mul_strassen | _mzed_addmul_strassen
  | mzed_make_table | mzed_echelonize_newton_john | mzed_ple_newton_john | _mzed_mul_newton_john0 | _mzed_mul_newton_john
  | mzed_mul_newton_john | mzed_addmul_newton_john | mzed_invert_newton_john
  | mzed_trsm_lower_left_newton_john | mzed_trsm_upper_left_newton_john
  | mzd_slice_trsm_lower_left_newton_john | mzd_slice_trsm_upper_left_newton_john
  | mzed_trsm_upper_left_naive | mzed_trsm_lower_left_naive | mzd_slice_trsm_upper_left_naive | mzd_slice_trsm_lower_left_naive
  | _mzed_trsm_lower_left | _mzed_trsm_upper_left | _mzd_slice_trsm_lower_left | _mzd_slice_trsm_upper_left
  | mzed_trsm_lower_left | mzed_trsm_upper_left | mzd_slice_trsm_lower_left | mzd_slice_trsm_upper_left
  | mzed_ple_naive | _mzed_ple | mzed_ple | _mzd_slice_ple | mzd_slice_ple | _mzd_slice_pluq | mzd_slice_pluq
  | mzed_echelonize_naive | mzed_echelonize | mzd_slice_echelonize_ple | mzed_echelonize_ple
  | mzd_slice_copy | mzd_slice_concat | mzd_slice_stack | mzd_slice_submatrix | _mzd_slice_add | mzd_slice_add | mzd_slice_set_ui
  | mzd_slice_mul_scalar | mzd_slice_addmul_scalar | _mzd_slice_addmul_naive | _mzd_slice_addmul_karatsuba
  | mzd_slice_mul_karatsuba | mzd_slice_addmul_karatsuba | mzd_slice_mul | mzd_slice_addmul
  | _mzd_slice_mul_blm | mzd_slice_mul_blm | mzd_slice_addmul_blm
  | mzed_slice | mzed_cling | _mzed_addmul_karatsuba | mzed_mul_karatsuba | mzed_addmul_karatsuba
  | _mzed_addmul_blm | mzed_mul_blm | mzed_addmul_blm | mzd_slice_rescale_row
  | kara2 | kara3 | kara4 | kara5 | kara6 | kara7 | kara8 | kara9 | kara10 | kara11 | kara12 | kara13 | kara14 | kara15 | kara16
  | djb_apply_mzd_ptr | _mzd_ptr_apply_blm_mzd | _mzd_ptr_apply_blm_djb | _mzd_ptr_apply_blm | _blm_djb_compile | crt_init
  | _small_multiplication_map | _crt_modred_mat | _blm_finish_polymult | blm_init_crt
  | _mzd_poly_add | mzd_poly_add | _mzd_poly_addmul_naive | _mzd_poly_addmul_karatsubs_balanced | _mzd_poly_addmul_blm | _mzd_poly_addmul_crt
  | _mzd_poly_addmul_ext1
deriving DecidableEq, Repr

abbrev St := Stmt FName

def NULL : Option Nat := none

/-- one after the other -/
def seqs : List St → St
  | [] => .skip
  | [p] => p
  | p :: ps => .seq p (seqs ps)

/-- a test that may end in `m4ri_die` -/
def orDie : St := .either .skip .die

/-- `if (c) p` with a condition on the data -/
def maybe (p : St) : St := .either p .skip

/-- read or write several matrices of one kind -/
def uses (k : Kind) (xs : List Nat) : St := seqs (xs.map fun x => .use x k)

def wins (k : Kind) (y : Nat) (xs : List Nat) : St := seqs (xs.map fun x => .win x y k)

def news (k : Kind) (xs : List Nat) : St := seqs (xs.map fun x => .new x k)

def dels (k : Kind) (xs : List Nat) : St := seqs (xs.map fun x => .del x k)

def fn (params : List Kind) (result : Option Nat) (body : List St) : Fn FName := ⟨params, result, seqs body⟩

/-- call, ignoring the result -/
def call (f : FName) (args : List (Option Nat)) : St := .call none f args

/-- call, storing the result -/
def callTo (x : Nat) (f : FName) (args : List (Option Nat)) : St := .call (some x) f args

/-! ## mzed.c, mzed.h -/

/-- mzed.c:53-66 -/
def f_mzed_add : Fn FName := let C : Nat := 0; let A : Nat := 1; let B : Nat := 2
  fn [.mzed, .mzed, .mzed] C [uses .mzed [A, B], orDie, .ifNull C (.new C .mzed) (maybe (.seq (.use C .mzed) orDie)), uses .mzed [C, A, B]]

/-- mzed.c:68-71 -/
def f__mzed_add : Fn FName := let C : Nat := 0; let A : Nat := 1; let B : Nat := 2
  fn [.mzed, .mzed, .mzed] C [uses .mzed [C, A, B]]

/-- mzed.c:74-88 -/
def f__mzed_mul_init : Fn FName := let C : Nat := 0; let A : Nat := 1; let B : Nat := 2
  fn [.mzed, .mzed, .mzed] C [uses .mzed [A, B], orDie,
    .ifNull C (.new C .mzed) (seqs [.use C .mzed, orDie, maybe (call .mzed_set_ui [C])])]

/-- mzed.c:90-94 (`mul`), 96-100 (`addmul`): the two differ in the flag given to `_mzed_mul_init` and in the routine called then -/
def f_mzed_mul (g : FName) : Fn FName := let C : Nat := 0; let A : Nat := 1; let B : Nat := 2
  fn [.mzed, .mzed, .mzed] C [callTo C ._mzed_mul_init [C, A, B], call g [C, A, B]]

/-- mzed.c:102-108 and, with `_mzed_addmul_strassen`, mzed.c:110-116; the cutoff (strassen.c:328-370) is only read from the matrices -/
def f__mzed_mul (g : FName) : Fn FName := let C : Nat := 0; let A : Nat := 1; let B : Nat := 2
  fn [.mzed, .mzed, .mzed] C [uses .mzed [A, B], .either (callTo C ._mzed_addmul_karatsuba [C, A, B])
    (seqs [uses .mzed [C, A, B], callTo C g [C, A, B]])]

/-- `C = _mzed_mul_init(C, A, B, ..); return g(C, A, B)`: mzed.c:118-121, 123-126, strassen.c:33-36, 38-41, newton_john.c:498-501, 503-506 -/
def f_initThen (g : FName) : Fn FName := let C : Nat := 0; let A : Nat := 1; let B : Nat := 2
  fn [.mzed, .mzed, .mzed] C [callTo C ._mzed_mul_init [C, A, B], callTo C g [C, A, B]]

/-- mzed.c:128-138 -/
def f__mzed_mul_naive : Fn FName := let C : Nat := 0; let A : Nat := 1; let B : Nat := 2
  fn [.mzed, .mzed, .mzed] C [.use C .mzed, .loop (uses .mzed [C, A, B])]

/-- mzed.c:141-193 (`mul`: plain memory from `gf2e_t16_init`, gf2e.h:166-193, released by `gf2e_t16_free`, gf2e.h:201-203) -/
def f_mzed_mul_scalar : Fn FName := let C : Nat := 0; let B : Nat := 1; let mul : Nat := 2
  fn [.mzed, .mzed] C [.ifNull C (seqs [.use B .mzed, .new C .mzed]) .skip, .use B .mzed,
    .either (seqs [call .mzed_copy [C, B], .loop (.use C .mzed)])
      (seqs [.new mul .mem, .loop (seqs [uses .mzed [C, B], .use mul .mem]), .del mul .mem])]

/-- mzed.c:196-206 (`A == B` with `A` not `NULL` is one of the two cases of the test) -/
def f_mzed_copy : Fn FName := let A : Nat := 0; let B : Nat := 1
  fn [.mzed, .mzed] A [.ifNull A (seqs [.use B .mzed, .new A .mzed, uses .mzed [A, B], orDie, uses .mzed [A, B]])
    (.either .skip (seqs [uses .mzed [A, B], orDie, uses .mzed [A, B]]))]

/-- `if (C == NULL) C = init(..A..B..); write C from A and B; return C`: mzed.h:111-116 (`mzed_concat`), mzed.h:135-140 (`mzed_stack`),
mzd_slice.h:397-405 (`mzd_slice_concat`), mzd_slice.h:424-432 (`mzd_slice_stack`), mzd_poly.h:152-162 (`_mzd_poly_addmul_naive`) -/
def f_into2 (k : Kind) : Fn FName := let C : Nat := 0; let A : Nat := 1; let B : Nat := 2
  fn [k, k, k] C [.ifNull C (seqs [uses k [A, B], .new C k]) .skip, .loop (uses k [C, A, B])]

/-- `if (C == NULL) C = init(..A..); write C from A; return C`: mzed.h:157-163 (`mzed_submatrix`), mzd_slice.h:164-172 (`mzd_slice_copy`),
mzd_slice.h:447-456 (`mzd_slice_submatrix`) -/
def f_into1 (k : Kind) : Fn FName := let C : Nat := 0; let A : Nat := 1
  fn [k, k] C [.ifNull C (seqs [.use A k, .new C k]) .skip, .loop (uses k [C, A])]

/-- a routine that only works on its arguments: mzed.c:245-252 (`mzed_set_ui`), mzed.c:208-243 (`mzed_echelonize_naive`), mzd_slice.c:57-61
(`mzd_slice_set_ui`), trsm.c:6-17 and 19-31 (`mzed_trsm_upper_left_naive`, `mzed_trsm_lower_left_naive`), ple.c:25-72 (`mzed_ple_naive`) -/
def f_inPlace (ks : List Kind) : Fn FName := fn ks none [.loop (seqs (ks.zipIdx.map fun (k, x) => .use x k))]

/-! ## strassen.c -/

/-- the three remainders of strassen.c:147-182 (`clear`: `mzed_set_ui` in the first two) and strassen.c:290-323; variables from 20 on -/
def strassenRest (clear : Bool) : List St :=
  let C : Nat := 0; let A : Nat := 1; let B : Nat := 2; let x : Nat := 20; let y : Nat := 21; let z : Nat := 22
  let cl (v : Nat) : List St := if clear then [call .mzed_set_ui [v]] else []
  [ maybe (seqs ([.win x B .mzed, .win y C .mzed] ++ cl y ++ [call ._mzed_mul_newton_john [y, A, x], .del x .mzed, .del y .mzed])),
    maybe (seqs ([.win x A .mzed, .win y B .mzed, .win z C .mzed] ++ cl z ++ [call ._mzed_mul_newton_john [z, x, y], dels .mzed [x, y, z]])),
    maybe (seqs [.win x A .mzed, .win y B .mzed, .win z C .mzed, call ._mzed_mul_newton_john [z, x, y], dels .mzed [x, y, z]]) ]

/-- strassen.c:43-185 -/
def f__mzed_mul_strassen : Fn FName :=
  let C : Nat := 0; let A : Nat := 1; let B : Nat := 2; let Cbar : Nat := 3
  let A11 : Nat := 4; let A12 : Nat := 5; let A21 : Nat := 6; let A22 : Nat := 7; let B11 : Nat := 8; let B12 : Nat := 9; let B21 : Nat := 10; let B22 : Nat := 11
  let C11 : Nat := 12; let C12 : Nat := 13; let C21 : Nat := 14; let C22 : Nat := 15; let Wmk : Nat := 16; let Wkn : Nat := 17
  let add (x y z : Nat) := call ._mzed_add [x, y, z]
  let mul (x y z : Nat) := call ._mzed_mul_strassen [x, y, z]
  fn [.mzed, .mzed, .mzed] C [.use C .mzed, .either .skip (seqs [uses .mzed [A, B],
    .either (seqs [.use C .mzed, .new Cbar .mzed, call ._mzed_mul_newton_john [Cbar, A, B], call .mzed_copy [C, Cbar], .del Cbar .mzed])
      (seqs ([.use A .mzed, wins .mzed A [A11, A12, A21, A22], wins .mzed B [B11, B12, B21, B22], wins .mzed C [C11, C12, C21, C22],
        .new Wmk .mzed, .new Wkn .mzed,
        add Wkn B22 B12, add Wmk A22 A12, mul C21 Wmk Wkn,
        add Wmk A22 A21, add Wkn B22 B21, mul C22 Wmk Wkn,
        add Wkn Wkn B12, add Wmk Wmk A12, mul C11 Wmk Wkn,
        add Wmk Wmk A11, mul C12 Wmk B12, add C12 C12 C22,
        .del Wmk .mzed, callTo Wmk .mzed_mul_strassen [NULL, A12, B21],
        add C11 C11 Wmk, add C12 C11 C12, add C11 C21 C11, add Wkn Wkn B11, mul C21 A21 Wkn, .del Wkn .mzed,
        add C21 C11 C21, add C22 C22 C11, mul C11 A11 B11, add C11 C11 Wmk,
        dels .mzed [A11, A12, A21, A22], dels .mzed [B11, B12, B21, B22], dels .mzed [C11, C12, C21, C22], .del Wmk .mzed]
        ++ strassenRest true))])]

/-- strassen.c:187-326 -/
def f__mzed_addmul_strassen : Fn FName :=
  let C : Nat := 0; let A : Nat := 1; let B : Nat := 2; let Cbar : Nat := 3
  let A11 : Nat := 4; let A12 : Nat := 5; let A21 : Nat := 6; let A22 : Nat := 7; let B11 : Nat := 8; let B12 : Nat := 9; let B21 : Nat := 10; let B22 : Nat := 11
  let C11 : Nat := 12; let C12 : Nat := 13; let C21 : Nat := 14; let C22 : Nat := 15; let S : Nat := 16; let T : Nat := 17; let U : Nat := 18
  let add (x y z : Nat) := call ._mzed_add [x, y, z]
  let mul (x y z : Nat) := call ._mzed_mul_strassen [x, y, z]
  let addmul (x y z : Nat) := call ._mzed_addmul_strassen [x, y, z]
  fn [.mzed, .mzed, .mzed] C [.use C .mzed, .either .skip (seqs [uses .mzed [A, B],
    .either (seqs [callTo Cbar .mzed_copy [NULL, C], call ._mzed_mul_newton_john [Cbar, A, B], call .mzed_copy [C, Cbar], .del Cbar .mzed])
      (seqs ([.use A .mzed, wins .mzed A [A11, A12, A21, A22], wins .mzed B [B11, B12, B21, B22], wins .mzed C [C11, C12, C21, C22],
        news .mzed [S, T, U],
        add S A22 A21, add T B22 B21, mul U S T, add C22 U C22, add C12 U C12,
        mul U A12 B21, add C11 U C11, addmul C11 A11 B11,
        add S S A12, add T T B12, addmul U S T, add C12 C12 U,
        add S A11 S, addmul C12 S B12, add T B11 T, addmul C21 A21 T,
        add S A22 A12, add T B22 B12, addmul U S T, add C21 C21 U, add C22 C22 U,
        dels .mzed [A11, A12, A21, A22], dels .mzed [B11, B12, B21, B22], dels .mzed [C11, C12, C21, C22], dels .mzed [S, T, U]]
        ++ strassenRest false))])]

/-! ## newton_john.c -/

/-- newton_john.c:156-233 -/
def f_mzed_make_table : Fn FName := let T : Nat := 0; let A : Nat := 1
  fn [.njt, .mzed] T [.ifNull T (seqs [.use A .mzed, .new T .njt]) .skip, .use T .njt, .loop (seqs [.use T .njt, .use A .mzed])]

/-- the first `n` tables are built from `A` and used on it: one of the cases of newton_john.c:277-335 -/
def njCase (A : Nat) (ts : List Nat) : St :=
  seqs (ts.map (fun (t : Nat) => call .mzed_make_table [t, A]) ++ [maybe (seqs [.use A .mzed, uses .njt ts]), maybe (seqs [.use A .mzed, uses .njt ts])])

/-- newton_john.c:235-347; `mzed_process_rows` .. `mzed_process_rows6` and `_mzed_gauss_submatrix_full` only work on their arguments -/
def f_mzed_echelonize_newton_john : Fn FName :=
  let A : Nat := 0; let T0 : Nat := 1; let T1 : Nat := 2; let T2 : Nat := 3; let T3 : Nat := 4; let T4 : Nat := 5; let T5 : Nat := 6
  fn [.mzed] none [.use A .mzed, news .njt [T0, T1, T2, T3, T4, T5],
    .loop (seqs [.use A .mzed,
      .either (njCase A [T0, T1, T2, T3, T4, T5]) (.either (njCase A [T0, T1, T2, T3, T4]) (.either (njCase A [T0, T1, T2, T3])
        (.either (njCase A [T0, T1, T2]) (.either (njCase A [T0, T1]) (.either (njCase A [T0]) .skip)))))]),
    dels .njt [T0, T1, T2, T3, T4, T5]]

/-- newton_john.c:349-397 -/
def f_mzed_ple_newton_john : Fn FName := let A : Nat := 0; let P : Nat := 1; let Q : Nat := 2; let T0 : Nat := 3
  fn [.mzed, .mzp, .mzp] none [.use A .mzed, .new T0 .njt,
    .loop (seqs [.loop (.use A .mzed), maybe (seqs [.use P .mzp, .use Q .mzp, .use A .mzed,
      maybe (seqs [.use A .mzed, call .mzed_make_table [T0, A], .use A .mzed, .use T0 .njt])])]),
    .loop (.use P .mzp), .loop (.use Q .mzp), .loop (seqs [.use A .mzed, .use Q .mzp]), .del T0 .njt]

/-- newton_john.c:399-410 -/
def f__mzed_mul_newton_john0 : Fn FName := let C : Nat := 0; let A : Nat := 1; let B : Nat := 2; let T0 : Nat := 3
  fn [.mzed, .mzed, .mzed] C [.use B .mzed, .new T0 .njt,
    .loop (seqs [call .mzed_make_table [T0, B], .loop (seqs [uses .mzed [C, A], .use T0 .njt])]), .del T0 .njt]

/-- newton_john.c:412-495 -/
def f__mzed_mul_newton_john : Fn FName := let C : Nat := 0; let A : Nat := 1; let B : Nat := 2
  let ts : List Nat := [3, 4, 5, 6, 7, 8, 9, 10]
  let step : St := .loop (seqs (ts.map (fun (t : Nat) => call .mzed_make_table [t, B]) ++ [.loop (seqs [uses .mzed [C, A], uses .njt ts])]))
  fn [.mzed, .mzed, .mzed] C [.use A .mzed, .either (callTo C ._mzed_mul_naive [C, A, B])
    (seqs [.use B .mzed, news .njt ts, .use A .mzed, .loop step, step,
      maybe (.loop (seqs [call .mzed_make_table [(3 : Nat), B], .loop (seqs [uses .mzed [C, A], .use 3 .njt])])),
      dels .njt [3, 4, 5, 6], dels .njt [7, 8, 9, 10]])]

/-- newton_john.c:508-530 -/
def f_mzed_invert_newton_john : Fn FName := let B : Nat := 0; let A : Nat := 1; let I : Nat := 2; let T : Nat := 3; let J : Nat := 4
  fn [.mzed, .mzed] B [.use A .mzed, .new I .mzed, call .mzed_set_ui [I], callTo T .mzed_concat [NULL, A, I],
    call .mzed_echelonize_newton_john [T], .win J T .mzed, uses .mzed [I, J], .del J .mzed, .del I .mzed,
    .either (seqs [.del T .mzed, .die]) (seqs [callTo B .mzed_submatrix [B, T], .del T .mzed])]

/-- newton_john.c:532-552 and 554-574 (`g`: the naive routine used for small matrices) -/
def f_mzed_trsm_newton_john (g : FName) : Fn FName := let L : Nat := 0; let B : Nat := 1; let T0 : Nat := 2
  fn [.mzed, .mzed] none [.use L .mzed, .either (call g [L, B])
    (seqs [.use B .mzed, .new T0 .njt,
      .loop (seqs [uses .mzed [B, L], call .mzed_make_table [T0, B], .loop (seqs [uses .mzed [B, L], .use T0 .njt])]), .del T0 .njt])]

/-- newton_john.c:576-599 and 601-624 -/
def f_mzd_slice_trsm_newton_john (g : FName) : Fn FName := let L : Nat := 0; let B : Nat := 1; let Be : Nat := 2; let T0 : Nat := 3
  fn [.slice, .slice] none [.use L .slice, .either (call g [L, B])
    (seqs [callTo Be .mzed_cling [NULL, B], .use B .slice, .new T0 .njt,
      .loop (seqs [.use Be .mzed, .use L .slice, call .mzed_make_table [T0, Be], .loop (seqs [.use Be .mzed, .use T0 .njt, .use L .slice])]),
      call .mzed_slice [B, Be], .del Be .mzed, .del T0 .njt])]

/-! ## trsm.c, trsm.inl, trsm.h -/

/-- trsm.c:33-45 and 47-60 -/
def f_mzd_slice_trsm_naive (g : FName) : Fn FName := let U : Nat := 0; let B : Nat := 1; let Ue : Nat := 2; let Be : Nat := 3
  fn [.slice, .slice] none [callTo Ue .mzed_cling [NULL, U], callTo Be .mzed_cling [NULL, B], call g [Ue, Be],
    call .mzed_slice [B, Be], .del Ue .mzed, .del Be .mzed]

/-- trsm.inl:9-50 -/
def f_trsm_lower (k : Kind) (base addmul self : FName) : Fn FName :=
  let L : Nat := 0; let B : Nat := 1; let B0 : Nat := 2; let B1 : Nat := 3; let L00 : Nat := 4; let L10 : Nat := 5; let L11 : Nat := 6
  fn [k, k] none [uses k [L, B], .either (call base [L, B])
    (seqs [.use L k, .win B0 B k, .win B1 B k, .win L00 L k, .win L10 L k, .win L11 L k,
      call self [L00, B0], call addmul [B1, L10, B0], call self [L11, B1], dels k [B0, B1, L00, L10, L11]])]

/-- trsm.inl:53-94 -/
def f_trsm_upper (k : Kind) (base addmul self : FName) : Fn FName :=
  let U : Nat := 0; let B : Nat := 1; let B0 : Nat := 2; let B1 : Nat := 3; let U00 : Nat := 4; let U01 : Nat := 5; let U11 : Nat := 6
  fn [k, k] none [uses k [U, B], .either (call base [U, B])
    (seqs [.use U k, .win B0 B k, .win B1 B k, .win U00 U k, .win U01 U k, .win U11 U k,
      call self [U11, B1], call addmul [B0, U01, B1], call self [U00, B0], dels k [B0, B1, U00, U01, U11]])]

/-- trsm.h:67-69, 103-105, 139-141, 175-177 -/
def f_fwd2 (k : Kind) (g : FName) : Fn FName := let U : Nat := 0; let B : Nat := 1
  fn [k, k] none [call g [U, B]]

/-! ## ple.c, ple.h, echelonform.c, echelonform.h -/

/-- ple.c:74-87 -/
def f__mzed_ple : Fn FName := let A : Nat := 0; let P : Nat := 1; let Q : Nat := 2; let a : Nat := 3
  fn [.mzed, .mzp, .mzp] none [.use A .mzed,
    .either (seqs [callTo a .mzed_slice [NULL, A], call ._mzd_slice_ple [a, P, Q], call .mzed_cling [A, a], .del a .slice])
      (call .mzed_ple_newton_john [A, P, Q])]

/-- ple.h:104-108, 141-145, 203-205 -/
def f_fwdPle (k : Kind) (g : FName) : Fn FName := let A : Nat := 0; let P : Nat := 1; let Q : Nat := 2
  fn [k, .mzp, .mzp] none [call g [A, P, Q]]

/-- ple.c:89-180 -/
def f__mzd_slice_ple : Fn FName :=
  let A : Nat := 0; let P : Nat := 1; let Q : Nat := 2; let Abar : Nat := 3; let A0 : Nat := 4; let A1 : Nat := 5; let P1 : Nat := 6; let Q1 : Nat := 7
  let A00 : Nat := 8; let A10 : Nat := 9; let A01 : Nat := 10; let A11 : Nat := 11; let P2 : Nat := 12; let Q2 : Nat := 13
  fn [.slice, .mzp, .mzp] none [.use A .slice,
    .either (seqs [callTo Abar .mzed_cling [NULL, A], call .mzed_ple_newton_john [Abar, P, Q], call .mzed_slice [A, Abar], .del Abar .mzed])
      (seqs [.win A0 A .slice, .win A1 A .slice, .win P1 P .mzp, .win Q1 Q .mzp,
        call ._mzd_slice_ple [A0, P1, Q1],
        .win A00 A .slice, .win A10 A .slice, .win A01 A .slice, .win A11 A .slice,
        maybe (seqs [.use A1 .slice, .use P1 .mzp, call .mzd_slice_trsm_lower_left [A00, A01], call .mzd_slice_addmul [A11, A10, A01]]),
        .del P1 .mzp, .del Q1 .mzp, .win P2 P .mzp, .win Q2 Q .mzp,
        call ._mzd_slice_ple [A11, P2, Q2],
        .use A10 .slice, .use P2 .mzp, .loop (.use P2 .mzp), .loop (.use Q2 .mzp), .loop (.use Q .mzp), .use A .slice,
        .del Q2 .mzp, .del P2 .mzp, dels .slice [A0, A1, A00, A01, A10, A11]])]

/-- ple.c:183-193 -/
def f__mzd_slice_pluq : Fn FName := let A : Nat := 0; let P : Nat := 1; let Q : Nat := 2; let A0 : Nat := 3
  fn [.slice, .mzp, .mzp] none [call ._mzd_slice_ple [A, P, Q],
    .either (seqs [.win A0 A .slice, .use A0 .slice, .use Q .mzp, .del A0 .slice]) (seqs [.use A .slice, .use Q .mzp])]

/-- echelonform.c:26-34 -/
def f_mzed_echelonize : Fn FName := let A : Nat := 0
  fn [.mzed] none [.use A .mzed, .either (call .mzed_echelonize_naive [A])
    (.either (call .mzed_echelonize_newton_john [A]) (call .mzed_echelonize_ple [A]))]

/-- echelonform.c:36-121 -/
def f_mzd_slice_echelonize_ple : Fn FName :=
  let A : Nat := 0; let P : Nat := 1; let Q : Nat := 2; let U : Nat := 3; let B : Nat := 4; let B0 : Nat := 5; let B0w : Nat := 6; let B1 : Nat := 7; let Bw : Nat := 8; let A0 : Nat := 9; let R : Nat := 10
  let ones : St := .loop (.use U .slice)
  fn [.slice] none [.use A .slice, .new P .mzp, .new Q .mzp,
    .either
      (seqs [call .mzd_slice_pluq [A, P, Q], .win U A .slice,
        .either (seqs [.win B A .slice, ones, call .mzd_slice_trsm_upper_left [U, B], .del B .slice])
          (maybe (.either
            (seqs [callTo B0 .mzd_slice_submatrix [NULL, A], .win B0w A .slice, .win B1 A .slice, ones,
              call .mzd_slice_trsm_upper_left [U, B0], call .mzd_slice_trsm_upper_left [U, B1],
              call .mzd_slice_copy [B0w, B0], .del B0 .slice, .del B0w .slice, .del B1 .slice])
            (seqs [callTo B .mzd_slice_submatrix [NULL, A], .win Bw A .slice, ones, call .mzd_slice_trsm_upper_left [U, B],
              call .mzd_slice_copy [Bw, B], .del Bw .slice, .del B .slice]))),
        call .mzd_slice_set_ui [U], .del U .slice,
        maybe (seqs [.win A0 A .slice, .use A0 .slice, .use Q .mzp, .del A0 .slice])])
      (seqs [call .mzd_slice_ple [A, P, Q], .loop (seqs [.use A .slice, .use Q .mzp])]),
    maybe (seqs [.win R A .slice, call .mzd_slice_set_ui [R], .del R .slice]),
    .del P .mzp, .del Q .mzp]

/-- echelonform.h:67-73 -/
def f_mzed_echelonize_ple : Fn FName := let A : Nat := 0; let a : Nat := 1
  fn [.mzed] none [callTo a .mzed_slice [NULL, A], call .mzd_slice_echelonize_ple [a], call .mzed_cling [A, a], .del a .slice]

/-! ## mzd_slice.h, mzd_slice.c -/

/-- mzd_slice.h:519-522 -/
def f__mzd_slice_add : Fn FName := let C : Nat := 0; let A : Nat := 1; let B : Nat := 2
  fn [.slice, .slice, .slice] C [uses .slice [C, A, B]]

/-- mzd_slice.h:537-547 -/
def f_mzd_slice_add : Fn FName := let C : Nat := 0; let A : Nat := 1; let B : Nat := 2
  fn [.slice, .slice, .slice] C [uses .slice [A, B], orDie, .ifNull C (.new C .slice) (seqs [.use C .slice, orDie]),
    callTo C ._mzd_slice_add [C, A, B]]

/-- mzd_slice.c:25-41 -/
def f_mzd_slice_mul_scalar : Fn FName := let C : Nat := 0; let B : Nat := 1
  fn [.slice, .slice] C [.ifNull C (seqs [.use B .slice, .new C .slice]) (call .mzd_slice_set_ui [C]), .loop (uses .slice [B, C])]

/-- mzd_slice.c:43-55 -/
def f_mzd_slice_addmul_scalar : Fn FName := let C : Nat := 0; let B : Nat := 1
  fn [.slice, .slice] C [.loop (uses .slice [B, C])]

/-- mzd_slice.c:82-98 -/
def f__mzd_slice_addmul_naive : Fn FName := let C : Nat := 0; let A : Nat := 1; let B : Nat := 2; let t0 : Nat := 3
  fn [.slice, .slice, .slice] C [.ifNull C (seqs [uses .slice [A, B], .new C .slice]) .skip, uses .slice [A, B], .new t0 .mzd,
    .loop (seqs [.use t0 .mzd, uses .slice [A, B, C]]), .del t0 .mzd]

/-- one of many cases -/
def oneOf : List St → St
  | [] => .die
  | [p] => p
  | p :: ps => .either p (oneOf ps)

/-- the fixed-length multiplications -/
def karas : List FName := [.kara2, .kara3, .kara4, .kara5, .kara6, .kara7, .kara8, .kara9, .kara10, .kara11, .kara12, .kara13, .kara14, .kara15,
  .kara16]

/-- mzd_slice.h:624-647 -/
def f__mzd_slice_addmul_karatsuba : Fn FName := let C : Nat := 0; let A : Nat := 1; let B : Nat := 2
  fn [.slice, .slice, .slice] C [.ifNull C (seqs [uses .slice [A, B], .new C .slice]) .skip, .use A .slice,
    oneOf (karas.map (fun g => seqs [uses .slice [C, A, B], call g []]) ++ [callTo C ._mzd_slice_addmul_naive [C, A, B]])]

/-- mzd_slice.h:661-670 and 744-753 and conversion.h:177-186, 246-255: checks, clearing the result, `g` -/
def f_checkedMul (k : Kind) (clear g : FName) : Fn FName := let C : Nat := 0; let A : Nat := 1; let B : Nat := 2
  fn [k, k, k] C [uses k [A, B], orDie, .ifNull C .skip (seqs [uses k [C, A, B], orDie, call clear [C]]), callTo C g [C, A, B]]

/-- mzd_slice.h:684-691, conversion.h:196-203, 265-272 -/
def f_checkedAddmul (k : Kind) (g : FName) : Fn FName := let C : Nat := 0; let A : Nat := 1; let B : Nat := 2
  fn [k, k, k] C [uses k [A, B], orDie, uses k [C, A, B], orDie, callTo C g [C, A, B]]

/-- mzd_slice.h:818-820, 834-836 -/
def f_fwd3 (g : FName) : Fn FName := let C : Nat := 0; let A : Nat := 1; let B : Nat := 2
  fn [.slice, .slice, .slice] C [callTo C g [C, A, B]]

/-- mzd_slice.h:706-729 -/
def f__mzd_slice_mul_blm : Fn FName := let C : Nat := 0; let A : Nat := 1; let B : Nat := 2; let f : Nat := 3; let free_f : Nat := 4; let p : Nat := 5
  fn [.slice, .slice, .slice, .blm] C [.ifNull C (seqs [uses .slice [A, B], .new C .slice]) .skip, .flag free_f false,
    .ifNull f (seqs [.use C .slice, orDie, .new p .mem, .use p .mem, .flag free_f true, callTo f .blm_init_crt [p], .del p .mem]) .skip,
    uses .slice [C, A, B], call ._mzd_ptr_apply_blm [f],
    .ifFlag free_f (.del f .blm) .skip]

/-- mzd_slice.h:744-753 -/
def f_mzd_slice_mul_blm : Fn FName := let C : Nat := 0; let A : Nat := 1; let B : Nat := 2; let f : Nat := 3
  fn [.slice, .slice, .slice, .blm] C [uses .slice [A, B], orDie,
    .ifNull C .skip (seqs [uses .slice [C, A, B], orDie, call .mzd_slice_set_ui [C]]), callTo C ._mzd_slice_mul_blm [C, A, B, f]]

/-- mzd_slice.h:768-778 -/
def f_mzd_slice_addmul_blm : Fn FName := let C : Nat := 0; let A : Nat := 1; let B : Nat := 2; let f : Nat := 3; let T : Nat := 4
  fn [.slice, .slice, .slice, .blm] C [uses .slice [A, B], orDie, uses .slice [C, A, B], orDie,
    callTo T ._mzd_slice_mul_blm [NULL, A, B, f], call .mzd_slice_add [C, C, T], .del T .slice]

/-! ## conversion.c, conversion.h -/

/-- conversion.c:56-86; `_mzed_slice2` .. `_mzed_slice16` work in place and return their first argument -/
def f_mzed_slice : Fn FName := let A : Nat := 0; let Z : Nat := 1
  fn [.slice, .mzed] A [.ifNull A (seqs [.use Z .mzed, .new A .slice]) (call .mzd_slice_set_ui [A]), .use Z .mzed,
    .either (.loop (seqs [.use A .slice, .use Z .mzed, orDie])) .die]

/-- conversion.c:88-119; `_mzed_cling2` .. `_mzed_cling16` likewise -/
def f_mzed_cling : Fn FName := let A : Nat := 0; let Z : Nat := 1
  fn [.mzed, .slice] A [.ifNull A (seqs [.use Z .slice, .new A .mzed]) (call .mzed_set_ui [A]), .use Z .slice,
    .either (.loop (seqs [.use A .mzed, .use Z .slice, orDie])) .die]

/-- conversion.h:148-165 -/
def f__mzed_addmul_karatsuba : Fn FName := let C : Nat := 0; let A : Nat := 1; let B : Nat := 2; let As : Nat := 3; let Bs : Nat := 4; let Cs : Nat := 5
  fn [.mzed, .mzed, .mzed] C [.ifNull C (.null Cs) (callTo Cs .mzed_slice [NULL, C]), callTo As .mzed_slice [NULL, A],
    callTo Bs .mzed_slice [NULL, B], callTo Cs ._mzd_slice_addmul_karatsuba [Cs, As, Bs], callTo C .mzed_cling [C, Cs],
    dels .slice [As, Bs, Cs]]

/-- conversion.h:215-234 -/
def f__mzed_addmul_blm : Fn FName := let C : Nat := 0; let A : Nat := 1; let B : Nat := 2; let As : Nat := 3; let Bs : Nat := 4; let Ts : Nat := 5; let T : Nat := 6
  fn [.mzed, .mzed, .mzed] C [callTo As .mzed_slice [NULL, A], callTo Bs .mzed_slice [NULL, B],
    callTo Ts ._mzd_slice_mul_blm [NULL, As, Bs, NULL], callTo T .mzed_cling [NULL, Ts], .del Ts .slice,
    .ifNull C (.move C T) (seqs [callTo C .mzed_add [C, C, T], .del T .mzed]), dels .slice [As, Bs]]

/-- conversion.h:286-295 (that `mzed_rescale_row` is given a row number outside its one-row matrix is C48_violation) -/
def f_mzd_slice_rescale_row : Fn FName := let A : Nat := 0; let A_w : Nat := 1; let A_we : Nat := 2
  fn [.slice] none [.win A_w A .slice, callTo A_we .mzed_cling [NULL, A_w], .use A_we .mzed, call .mzed_slice [A_w, A_we],
    .del A_we .mzed, .del A_w .slice]

/-! ## karatsuba.c, mzd_ptr.c, blm.c -/

/-- karatsuba.c:4-23 -/
def f_kara2 : Fn FName := let t0 : Nat := 0; let t1 : Nat := 1
  fn [] none [.new t0 .mzd, .new t1 .mzd, uses .mzd [t0, t1], .del t0 .mzd, .del t1 .mzd, .new t0 .mzd, .use t0 .mzd, .use t0 .mzd, .del t0 .mzd]

/-- karatsuba.c:94-160 -/
def f_kara5 : Fn FName := let t0 : Nat := 0; let t1 : Nat := 1; let t2 : Nat := 2
  fn [] none [.new t0 .mzd, .use t0 .mzd, .new t1 .mzd, .new t2 .mzd, uses .mzd [t0, t1, t2], dels .mzd [t0, t1, t2]]

/-- karatsuba.c:25-48, 50-92, 162-233, 235-351, 353-455, 457-578, 580-718, 720-871, 873-1043, 1045-1227, 1229-1430, 1432-1652, 1654-1886 -/
def f_kara : Fn FName := let t0 : Nat := 0; let t1 : Nat := 1; let t2 : Nat := 2
  fn [] none [news .mzd [t0, t1, t2], uses .mzd [t0, t1, t2], dels .mzd [t0, t1, t2]]

/-- mzd_ptr.c:5-29 -/
def f_djb_apply_mzd_ptr : Fn FName := let iszero : Nat := 0
  fn [] none [.new iszero .mem, .loop (.use iszero .mem), .loop (.use iszero .mem), .del iszero .mem]

/-- blm.c:4-41 -/
def f__mzd_ptr_apply_blm_mzd : Fn FName := let f : Nat := 0; let t0 : Nat := 1; let t1 : Nat := 2; let t2 : Nat := 3
  fn [.blm] none [.use f .blm, news .mzd [t0, t1, t2], .loop (seqs [.use f .blm, uses .mzd [t0, t1, t2]]), dels .mzd [t0, t1, t2]]

/-- blm.c:65-101; the matrices in the arrays are released element by element there, here with the array (element by element: C62) -/
def f__mzd_ptr_apply_blm_djb : Fn FName := let f : Nat := 0; let t0 : Nat := 1; let t1 : Nat := 2; let t2 : Nat := 3; let x : Nat := 4
  fn [.blm] none [.use f .blm, news .arr [t0, t1, t2],
    .loop (seqs [.new x .mzd, .absorb t1 x, .new x .mzd, .absorb t2 x]),
    .use f .blm, call .djb_apply_mzd_ptr [], .use f .blm, call .djb_apply_mzd_ptr [],
    .loop (seqs [.new x .mzd, uses .arr [t1, t2], .use x .mzd, .absorb t0 x]),
    .use f .blm, .use t0 .arr, call .djb_apply_mzd_ptr [],
    dels .arr [t0, t1, t2]]

/-- blm.h:153-158 -/
def f__mzd_ptr_apply_blm : Fn FName := let f : Nat := 0
  fn [.blm] none [.use f .blm, .either (call ._mzd_ptr_apply_blm_djb [f]) (call ._mzd_ptr_apply_blm_mzd [f])]

/-- blm.c:43-63 -/
def f__blm_djb_compile : Fn FName := let f : Nat := 0; let F : Nat := 1; let G : Nat := 2; let H : Nat := 3; let m : Nat := 4
  fn [.blm] f [.use f .blm, .new F .mzd, .use F .mzd, .new m .djb, .absorb f m, .del F .mzd, .use f .blm,
    .either (.use f .blm) (seqs [.use f .blm, .new G .mzd, .use G .mzd, .new m .djb, .absorb f m, .del G .mzd]),
    .use f .blm, .new H .mzd, .use H .mzd, .new m .djb, .absorb f m, .del H .mzd]

/-- blm.c:105-151 -/
def f_crt_init : Fn FName := let p_best : Nat := 0; let p : Nat := 1
  fn [] p_best [.new p_best .mem, .new p .mem, .loop (seqs [.use p .mem, .loop (.use p .mem), maybe (seqs [.use p_best .mem, .use p .mem])]),
    .del p .mem]

/-- blm.c:153-334 -/
def f__small_multiplication_map : Fn FName := let A : Nat := 0
  fn [] A [.either (seqs [.new A .mzd, .use A .mzd]) .die]

/-- blm.c:342-379; `f` and `t` (lines 352-353) are never released, the pointers are lost at the end of the routine; repaired if `fix` -/
def f__crt_modred_mat (fix : Bool) : Fn FName := let A : Nat := 0; let f : Nat := 1; let t : Nat := 2
  fn [] A [.new A .mzd, .either (.loop (.use A .mzd))
    (seqs ([.new f .mzd, .new t .mzd, .loop (seqs [.use f .mzd, .loop (seqs [.use t .mzd, .use f .mzd]), .loop (seqs [.use A .mzd, .use f .mzd])])]
      ++ if fix then [.del f .mzd, .del t .mzd] else [.null f, .null t]))]

/-- blm.c:381-482; `DT` (line 449) is never released; repaired if `fix` -/
def f__blm_finish_polymult (fix : Bool) : Fn FName :=
  let f : Nat := 0; let H : Nat := 1; let F_T : Nat := 2; let G_T : Nat := 3; let C : Nat := 4; let pivots : Nat := 5; let P : Nat := 6; let Q : Nat := 7; let D : Nat := 8; let DT : Nat := 9
  let a : Nat := 10; let b : Nat := 11; let N : Nat := 12; let fH : Nat := 13
  fn [.blm] f ([.use f .blm, .new H .mzd, .use f .blm, .new F_T .mzd, .use f .blm, .new G_T .mzd, .new C .mzd, .new pivots .mzd, .new P .mzp,
    .new Q .mzp,
    .loop (seqs [uses .mzd [C, F_T, G_T, pivots], .use f .blm,
      maybe (seqs [.use C .mzd, .new D .mzd, .use D .mzd, .use P .mzp, .use Q .mzp, uses .mzd [pivots, C], .use P .mzp, .del D .mzd])]),
    .del P .mzp, .del Q .mzp, .loop (uses .mzd [pivots, C, F_T, G_T]), .del F_T .mzd, .del G_T .mzd,
    .use C .mzd, .new D .mzd, .del C .mzd, .use D .mzd, .new DT .mzd, .del D .mzd, .new a .mzd, .use H .mzd, .new b .mzd,
    .loop (seqs [.use a .mzd, .loop (uses .mzd [pivots, a]), uses .mzd [b, a, DT], .loop (uses .mzd [H, b])]),
    .del a .mzd, .del b .mzd, .del pivots .mzd]
    ++ (if fix then [.del DT .mzd] else []) ++
    [.either (.absorb f H)
      (seqs [.use H .mzd, callTo N ._crt_modred_mat [], uses .mzd [N, H], .new fH .mzd, .absorb f fH, .del N .mzd, .del H .mzd])])

/-- one modulus (blm.c:521-531, 573-583): the reduction matrix for `F`, then for `G`.  A window into a part of `f` is a window into `f`. -/
def crtBlock (f N M T : Nat) : List St :=
  [callTo M ._crt_modred_mat [], .win T f .mzd, uses .mzd [T, N, M], .del T .mzd, .del M .mzd,
   callTo M ._crt_modred_mat [], .win T f .mzd, uses .mzd [T, N, M], .del T .mzd, .del M .mzd]

/-- blm.c:487-608 -/
def f_blm_init_crt : Fn FName := let p : Nat := 0; let f : Nat := 1; let p_it : Nat := 2; let M : Nat := 3; let T : Nat := 4; let x : Nat := 5; let N : Nat := 6
  fn [.mem] f [.new f .blm, .new p_it .mem, .use p .mem, .loop (.use p .mem),
    .new x .mzd, .absorb f x, .new x .mzd, .absorb f x, .use p .mem,
    maybe (seqs ([.use p .mem, callTo N ._small_multiplication_map []] ++ crtBlock f N M T ++ [.del N .mzd])),
    .loop (seqs [.use p .mem, maybe (seqs [callTo N ._small_multiplication_map [],
      .loop (seqs ([.use p .mem, .use p_it .mem, orDie] ++ crtBlock f N M T)), .del N .mzd])]),
    .del p_it .mem, call ._blm_finish_polymult [f], .use f .blm, maybe (call ._blm_djb_compile [f])]

/-! ## mzd_poly.h, mzd_poly.c -/

/-- mzd_poly.h:60-63 -/
def f__mzd_poly_add : Fn FName := let C : Nat := 0; let A : Nat := 1; let B : Nat := 2
  fn [.poly, .poly, .poly] C [uses .poly [C, A, B]]

/-- mzd_poly.h:75-78 -/
def f_mzd_poly_add : Fn FName := let C : Nat := 0; let A : Nat := 1; let B : Nat := 2
  fn [.poly, .poly, .poly] C [callTo C ._mzd_poly_add [C, A, B]]

/-- mzd_poly.h:175-203 -/
def f__mzd_poly_addmul_karatsubs_balanced : Fn FName := let C : Nat := 0; let A : Nat := 1; let B : Nat := 2
  fn [.poly, .poly, .poly] C [.ifNull C (seqs [uses .poly [A, B], .new C .poly]) .skip, .use A .poly,
    oneOf ([.die, uses .poly [C, A, B]] ++ karas.map (fun g => seqs [uses .poly [C, A, B], call g []]) ++ [.die])]

/-- mzd_poly.h:209-218 -/
def f__mzd_poly_addmul_blm : Fn FName := let C : Nat := 0; let A : Nat := 1; let B : Nat := 2; let f : Nat := 3
  fn [.poly, .poly, .poly, .blm] C [.ifNull C (seqs [uses .poly [A, B], .new C .poly]) .skip, uses .poly [C, A, B], call ._mzd_ptr_apply_blm [f]]

/-- mzd_poly.h:225-232; the result of line 228 is dropped, so that with `C == NULL` the product is lost; repaired if `fix` -/
def f__mzd_poly_addmul_crt (fix : Bool) : Fn FName := let C : Nat := 0; let A : Nat := 1; let B : Nat := 2; let p : Nat := 3; let f : Nat := 4
  fn [.poly, .poly, .poly] C [uses .poly [A, B], callTo p .crt_init [], callTo f .blm_init_crt [p],
    (if fix then callTo C ._mzd_poly_addmul_blm [C, A, B, f] else call ._mzd_poly_addmul_blm [C, A, B, f]), .del f .blm, .del p .mem]

/-- mzd_poly.c:12-79 (the array `c` with its slices: see the note on arrays above) -/
def f__mzd_poly_addmul_ext1 : Fn FName :=
  let C : Nat := 0; let A : Nat := 1; let B : Nat := 2; let ff : Nat := 3; let a : Nat := 4; let b : Nat := 5; let c : Nat := 6; let Phi : Nat := 7; let Rho : Nat := 8; let x : Nat := 9; let tmp : Nat := 10
  fn [.poly, .poly, .poly] C [uses .poly [A, B], .new ff .field, .win a ff .slice, .win b ff .slice, .new c .arr, .win Phi ff .mzed,
    .win Rho ff .mzed, .use Phi .mzed, .new x .slice, .absorb c x, .use c .arr, uses .poly [A, B],
    .loop (.use Phi .mzed), .loop (seqs [.use a .slice, .use A .poly]), .loop (seqs [.use b .slice, .use B .poly]),
    .new x .slice, .absorb c x, uses .slice [a, b],
    .loop (seqs [uses .slice [a, b], .loop (seqs [.use Phi .mzed, uses .slice [a, b], uses .poly [A, B], .use ff .field]),
      callTo x .mzd_slice_mul [NULL, a, b], .absorb c x]),
    .del a .slice, .del b .slice, call .mzed_invert_newton_john [Rho, Phi], .win tmp ff .slice,
    .loop (.loop (seqs [.use tmp .slice, .use Rho .mzed, .use c .arr, .use C .poly])),
    .del tmp .slice, .del c .arr, .del Phi .mzed, .del Rho .mzed, .del ff .field]

/-- the library; `fix`: with the three repairs -/
def table (fix : Bool) : FName → Fn FName
  | .mzed_add => f_mzed_add
  | ._mzed_add => f__mzed_add
  | ._mzed_mul_init => f__mzed_mul_init
  | .mzed_mul => f_mzed_mul ._mzed_mul
  | .mzed_addmul => f_mzed_mul ._mzed_addmul
  | ._mzed_mul => f__mzed_mul ._mzed_mul_strassen
  | ._mzed_addmul => f__mzed_mul ._mzed_addmul_strassen
  | .mzed_mul_naive => f_initThen ._mzed_mul_naive
  | .mzed_addmul_naive => f_initThen ._mzed_mul_naive
  | ._mzed_mul_naive => f__mzed_mul_naive
  | .mzed_mul_scalar => f_mzed_mul_scalar
  | .mzed_copy => f_mzed_copy
  | .mzed_concat => f_into2 .mzed
  | .mzed_stack => f_into2 .mzed
  | .mzed_submatrix => f_into1 .mzed
  | .mzed_set_ui => f_inPlace [.mzed]
  | .mzed_mul_strassen => f_initThen ._mzed_mul_strassen
  | .mzed_addmul_strassen => f_initThen ._mzed_addmul_strassen
  | ._mzed_mul_strassen => f__mzed_mul_strassen
  | ._mzed_addmul_strassen => f__mzed_addmul_strassen
  | .mzed_make_table => f_mzed_make_table
  | .mzed_echelonize_newton_john => f_mzed_echelonize_newton_john
  | .mzed_ple_newton_john => f_mzed_ple_newton_john
  | ._mzed_mul_newton_john0 => f__mzed_mul_newton_john0
  | ._mzed_mul_newton_john => f__mzed_mul_newton_john
  | .mzed_mul_newton_john => f_initThen ._mzed_mul_newton_john
  | .mzed_addmul_newton_john => f_initThen ._mzed_mul_newton_john
  | .mzed_invert_newton_john => f_mzed_invert_newton_john
  | .mzed_trsm_lower_left_newton_john => f_mzed_trsm_newton_john .mzed_trsm_lower_left_naive
  | .mzed_trsm_upper_left_newton_john => f_mzed_trsm_newton_john .mzed_trsm_upper_left_naive
  | .mzd_slice_trsm_lower_left_newton_john => f_mzd_slice_trsm_newton_john .mzd_slice_trsm_lower_left_naive
  | .mzd_slice_trsm_upper_left_newton_john => f_mzd_slice_trsm_newton_john .mzd_slice_trsm_upper_left_naive
  | .mzed_trsm_upper_left_naive => f_inPlace [.mzed, .mzed]
  | .mzed_trsm_lower_left_naive => f_inPlace [.mzed, .mzed]
  | .mzd_slice_trsm_upper_left_naive => f_mzd_slice_trsm_naive .mzed_trsm_upper_left_naive
  | .mzd_slice_trsm_lower_left_naive => f_mzd_slice_trsm_naive .mzed_trsm_lower_left_naive
  | ._mzed_trsm_lower_left => f_trsm_lower .mzed .mzed_trsm_lower_left_newton_john .mzed_addmul ._mzed_trsm_lower_left
  | ._mzed_trsm_upper_left => f_trsm_upper .mzed .mzed_trsm_upper_left_newton_john .mzed_addmul ._mzed_trsm_upper_left
  | ._mzd_slice_trsm_lower_left => f_trsm_lower .slice .mzd_slice_trsm_lower_left_newton_john .mzd_slice_addmul ._mzd_slice_trsm_lower_left
  | ._mzd_slice_trsm_upper_left => f_trsm_upper .slice .mzd_slice_trsm_upper_left_newton_john .mzd_slice_addmul ._mzd_slice_trsm_upper_left
  | .mzed_trsm_lower_left => f_fwd2 .mzed ._mzed_trsm_lower_left
  | .mzed_trsm_upper_left => f_fwd2 .mzed ._mzed_trsm_upper_left
  | .mzd_slice_trsm_lower_left => f_fwd2 .slice ._mzd_slice_trsm_lower_left
  | .mzd_slice_trsm_upper_left => f_fwd2 .slice ._mzd_slice_trsm_upper_left
  | .mzed_ple_naive => f_inPlace [.mzed, .mzp, .mzp]
  | ._mzed_ple => f__mzed_ple
  | .mzed_ple => f_fwdPle .mzed ._mzed_ple
  | ._mzd_slice_ple => f__mzd_slice_ple
  | .mzd_slice_ple => f_fwdPle .slice ._mzd_slice_ple
  | ._mzd_slice_pluq => f__mzd_slice_pluq
  | .mzd_slice_pluq => f_fwdPle .slice ._mzd_slice_pluq
  | .mzed_echelonize_naive => f_inPlace [.mzed]
  | .mzed_echelonize => f_mzed_echelonize
  | .mzd_slice_echelonize_ple => f_mzd_slice_echelonize_ple
  | .mzed_echelonize_ple => f_mzed_echelonize_ple
  | .mzd_slice_copy => f_into1 .slice
  | .mzd_slice_concat => f_into2 .slice
  | .mzd_slice_stack => f_into2 .slice
  | .mzd_slice_submatrix => f_into1 .slice
  | ._mzd_slice_add => f__mzd_slice_add
  | .mzd_slice_add => f_mzd_slice_add
  | .mzd_slice_set_ui => f_inPlace [.slice]
  | .mzd_slice_mul_scalar => f_mzd_slice_mul_scalar
  | .mzd_slice_addmul_scalar => f_mzd_slice_addmul_scalar
  | ._mzd_slice_addmul_naive => f__mzd_slice_addmul_naive
  | ._mzd_slice_addmul_karatsuba => f__mzd_slice_addmul_karatsuba
  | .mzd_slice_mul_karatsuba => f_checkedMul .slice .mzd_slice_set_ui ._mzd_slice_addmul_karatsuba
  | .mzd_slice_addmul_karatsuba => f_checkedAddmul .slice ._mzd_slice_addmul_karatsuba
  | .mzd_slice_mul => f_fwd3 .mzd_slice_mul_karatsuba
  | .mzd_slice_addmul => f_fwd3 .mzd_slice_addmul_karatsuba
  | ._mzd_slice_mul_blm => f__mzd_slice_mul_blm
  | .mzd_slice_mul_blm => f_mzd_slice_mul_blm
  | .mzd_slice_addmul_blm => f_mzd_slice_addmul_blm
  | .mzed_slice => f_mzed_slice
  | .mzed_cling => f_mzed_cling
  | ._mzed_addmul_karatsuba => f__mzed_addmul_karatsuba
  | .mzed_mul_karatsuba => f_checkedMul .mzed .mzed_set_ui ._mzed_addmul_karatsuba
  | .mzed_addmul_karatsuba => f_checkedAddmul .mzed ._mzed_addmul_karatsuba
  | ._mzed_addmul_blm => f__mzed_addmul_blm
  | .mzed_mul_blm => f_checkedMul .mzed .mzed_set_ui ._mzed_addmul_blm
  | .mzed_addmul_blm => f_checkedAddmul .mzed ._mzed_addmul_blm
  | .mzd_slice_rescale_row => f_mzd_slice_rescale_row
  | .kara2 => f_kara2
  | .kara5 => f_kara5
  | .kara3 | .kara4 | .kara6 | .kara7 | .kara8 | .kara9 | .kara10 | .kara11 | .kara12 | .kara13 | .kara14 | .kara15 | .kara16 => f_kara
  | .djb_apply_mzd_ptr => f_djb_apply_mzd_ptr
  | ._mzd_ptr_apply_blm_mzd => f__mzd_ptr_apply_blm_mzd
  | ._mzd_ptr_apply_blm_djb => f__mzd_ptr_apply_blm_djb
  | ._mzd_ptr_apply_blm => f__mzd_ptr_apply_blm
  | ._blm_djb_compile => f__blm_djb_compile
  | .crt_init => f_crt_init
  | ._small_multiplication_map => f__small_multiplication_map
  | ._crt_modred_mat => f__crt_modred_mat fix
  | ._blm_finish_polymult => f__blm_finish_polymult fix
  | .blm_init_crt => f_blm_init_crt
  | ._mzd_poly_add => f__mzd_poly_add
  | .mzd_poly_add => f_mzd_poly_add
  | ._mzd_poly_addmul_naive => f_into2 .poly
  | ._mzd_poly_addmul_karatsubs_balanced => f__mzd_poly_addmul_karatsubs_balanced
  | ._mzd_poly_addmul_blm => f__mzd_poly_addmul_blm
  | ._mzd_poly_addmul_crt => f__mzd_poly_addmul_crt fix
  | ._mzd_poly_addmul_ext1 => f__mzd_poly_addmul_ext1

end M4rie.Res
