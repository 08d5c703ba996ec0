import Verif.Model.Heap
/-!
# How the routines may be called, and what they promise

For each routine the ways in which it may be called (which arguments are `NULL`) and what it returns then.  `leaky` marks the ways that
leave objects behind in the code as it is.
-/
namespace M4rie.Res

def sg (nulls : List Bool) (gives : Gives) : Sig := ⟨nulls, gives, false⟩

/-- the first of `n` arguments may be `NULL`: then the result is a new object, otherwise it is the first argument -/
def outN (n : Nat) (k : Kind) : List Sig :=
  [sg (true :: List.replicate (n - 1) false) (.fresh k), sg (List.replicate n false) (.arg 0)]

/-- the first of `n` arguments must not be `NULL`, it is returned -/
def ret (n : Nat) : List Sig := [sg (List.replicate n false) (.arg 0)]

/-- nothing is returned, no argument may be `NULL` -/
def proc (n : Nat) : List Sig := [sg (List.replicate n false) .nothing]

/-- the same, leaving objects behind unless `fix` -/
def leaky (fix : Bool) (l : List Sig) : List Sig := l.map fun s => ⟨s.nulls, s.gives, !fix⟩

/-- the ways to call a routine; `fix` refers to the three repairs of `Model/Heap.lean` -/
def api (fix : Bool) : FName → List Sig
  | .mzed_add | ._mzed_mul_init | .mzed_mul | .mzed_addmul | .mzed_mul_naive | .mzed_addmul_naive | .mzed_concat | .mzed_stack
  | .mzed_mul_strassen | .mzed_addmul_strassen | .mzed_mul_newton_john | .mzed_addmul_newton_john
  | ._mzed_addmul_karatsuba | .mzed_mul_karatsuba => outN 3 .mzed
  | .mzed_mul_scalar | .mzed_copy | .mzed_submatrix | .mzed_invert_newton_john | .mzed_cling => outN 2 .mzed
  | ._mzed_add | ._mzed_mul | ._mzed_addmul | ._mzed_mul_naive | ._mzed_mul_strassen | ._mzed_addmul_strassen | ._mzed_mul_newton_john0
  | ._mzed_mul_newton_john | .mzed_addmul_karatsuba | ._mzd_slice_add | .mzd_slice_addmul_karatsuba | .mzd_slice_addmul => ret 3
  | .mzed_make_table => outN 2 .njt
  | .mzd_slice_concat | .mzd_slice_stack | .mzd_slice_add | ._mzd_slice_addmul_naive | ._mzd_slice_addmul_karatsuba | .mzd_slice_mul_karatsuba
  | .mzd_slice_mul => outN 3 .slice
  | .mzd_slice_copy | .mzd_slice_submatrix | .mzd_slice_mul_scalar | .mzed_slice => outN 2 .slice
  | .mzd_slice_addmul_scalar => ret 2
  | .mzed_set_ui | .mzed_echelonize_newton_john | .mzed_echelonize_naive | .mzed_echelonize | .mzed_echelonize_ple | .mzd_slice_set_ui
  | .mzd_slice_echelonize_ple | .mzd_slice_rescale_row | ._mzd_ptr_apply_blm_mzd | ._mzd_ptr_apply_blm_djb | ._mzd_ptr_apply_blm => proc 1
  | .mzed_trsm_lower_left_newton_john | .mzed_trsm_upper_left_newton_john | .mzd_slice_trsm_lower_left_newton_john
  | .mzd_slice_trsm_upper_left_newton_john | .mzed_trsm_upper_left_naive | .mzed_trsm_lower_left_naive | .mzd_slice_trsm_upper_left_naive
  | .mzd_slice_trsm_lower_left_naive | ._mzed_trsm_lower_left | ._mzed_trsm_upper_left | ._mzd_slice_trsm_lower_left
  | ._mzd_slice_trsm_upper_left | .mzed_trsm_lower_left | .mzed_trsm_upper_left | .mzd_slice_trsm_lower_left
  | .mzd_slice_trsm_upper_left => proc 2
  | .mzed_ple_naive | .mzed_ple_newton_john | ._mzed_ple | .mzed_ple | ._mzd_slice_ple | .mzd_slice_ple | ._mzd_slice_pluq
  | .mzd_slice_pluq => proc 3
  | ._mzd_slice_mul_blm | .mzd_slice_mul_blm => outN 4 .slice ++
      leaky fix [sg [true, false, false, true] (.fresh .slice), sg [false, false, false, true] (.arg 0)]
  | .mzd_slice_addmul_blm => ret 4 ++ leaky fix [sg [false, false, false, true] (.arg 0)]
  | ._mzed_addmul_blm | .mzed_mul_blm => leaky fix (outN 3 .mzed)
  | .mzed_addmul_blm => leaky fix (ret 3)
  | .kara2 | .kara3 | .kara4 | .kara5 | .kara6 | .kara7 | .kara8 | .kara9 | .kara10 | .kara11 | .kara12 | .kara13 | .kara14 | .kara15 | .kara16
  | .djb_apply_mzd_ptr => proc 0
  | ._blm_djb_compile => ret 1
  | .crt_init => [sg [] (.fresh .mem)]
  | ._small_multiplication_map => [sg [] (.fresh .mzd)]
  | ._crt_modred_mat => leaky fix [sg [] (.fresh .mzd)]
  | ._blm_finish_polymult => leaky fix (ret 1)
  | .blm_init_crt => leaky fix [sg [false] (.fresh .blm)]
  | ._mzd_poly_add | .mzd_poly_add | ._mzd_poly_addmul_ext1 => ret 3
  | ._mzd_poly_addmul_naive | ._mzd_poly_addmul_karatsubs_balanced => outN 3 .poly
  | ._mzd_poly_addmul_blm => outN 4 .poly
  | ._mzd_poly_addmul_crt => leaky fix (if fix then outN 3 .poly else ret 3)

end M4rie.Res
