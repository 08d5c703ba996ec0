{"id": "C01", "title": "gf2x_mul is the carry-less product", "statement": "gf2x_mul(a,b,d) returns the product of the GF(2)[X] polynomials encoded by a and b whenever 1<=d<=32, deg(a)<d and the product fits in 64 bits; for d outside 1..32 it dies instead of returning.", "quantifier": "all 64-bit words a, b and all d", "why_tests_cant": "2^128 operand pairs cannot be enumerated", "anchors": ["src/gf2x.h: gf2x_mul"]}
{"id": "C02", "title": "gf2x_deg is the degree", "statement": "gf2x_deg(a) is the index of the highest set bit of every non-zero 64-bit word (the degree of the encoded polynomial) and 0 for 0.", "quantifier": "all 64-bit words", "why_tests_cant": "2^64 inputs", "anchors": ["src/gf2x.h: gf2x_deg"]}
{"id": "C03", "title": "Euclidean division in GF(2)[X]", "statement": "For every a and every non-zero b, gf2x_divmod returns q and r with a = q*b + r and r = 0 or deg r < deg b; gf2x_div returns the same q and gf2x_mod the same r.", "quantifier": "all pairs of 64-bit words with b non-zero", "why_tests_cant": "2^128 operand pairs cannot be enumerated", "anchors": ["src/gf2x.h: gf2x_div, gf2x_mod, gf2x_divmod"]}
{"id": "C04", "title": "Field inversion", "statement": "For an irreducible minimal polynomial of degree e in 1..16 and every a with 0<a<2^e, gf2e_inv terminates, returns an element < 2^e, and gf2e_mul(a, gf2e_inv(a)) = 1; gf2e_inv(0) = 0.", "quantifier": "all irreducible minimal polynomials of degree 1..16 and all elements", "why_tests_cant": "the number of (field, element) pairs and termination of the Euclidean loop", "anchors": ["src/gf2x.h: gf2x_invmod", "src/gf2e.h: gf2e_inv"]}
{"id": "C05", "title": "Reduction table is well defined", "statement": "gf2e_init never hits its assertion: for every polynomial of degree e in 1..16 the 2^e-1 multiples of the minimal polynomial occupy pairwise distinct slots, and red[t] is the unique multiple of the minimal polynomial whose bits e..2e-1 are t and which has degree < 2e.", "quantifier": "every minimal polynomial of degree 1..16 and every slot", "why_tests_cant": "all 2^17 moduli and all slots", "anchors": ["src/gf2e.c: gf2e_init"]}
{"id": "C06", "title": "Powers of the generator", "statement": "After gf2e_init, pow_gen[i] is X^i reduced modulo the minimal polynomial for 0<=i<2e-1.", "quantifier": "every minimal polynomial of degree 1..16, every i < 2e-1", "why_tests_cant": "all moduli", "anchors": ["src/gf2e.c: gf2e_init"]}
{"id": "C07", "title": "Field multiplication is multiplication modulo the minimal polynomial", "statement": "For a, b < 2^e, gf2e_mul(ff,a,b) is < 2^e, is congruent to a*b modulo the minimal polynomial, only reads initialised table slots, and the table implementation (e<=8) and arithmetic implementation (e>8) give the same value.", "quantifier": "every minimal polynomial of degree 1..16 and all element pairs", "why_tests_cant": "all fields, all operand pairs; agreement of two implementations", "anchors": ["src/gf2e.h: gf2e_mul, _gf2e_mul_table, _gf2e_mul_arith", "src/gf2e.c: gf2e_init"]}
{"id": "C08", "title": "GF(2^e) is a field", "statement": "With an irreducible minimal polynomial, the e-bit words with XOR as addition, gf2e_mul as multiplication and gf2e_inv as inversion satisfy all the field axioms and have characteristic 2; the field is isomorphic to GF(2)[X]/(minpoly).", "quantifier": "all irreducible minimal polynomials of degree 1..16, all elements", "why_tests_cant": "universally quantified algebraic laws over triples of elements", "anchors": ["src/gf2e.c: gf2e_init", "src/gf2e.h: gf2e_mul, gf2e_inv"]}
{"id": "C09", "title": "Published irreducible polynomial tables", "statement": "Every entry of irreducible_polynomials[d] is an irreducible polynomial of degree exactly d, entries are pairwise distinct, and the leading count is the number of entries.", "quantifier": "all d in 1..16, all entries", "why_tests_cant": "irreducibility is a universally quantified statement about factorizations", "anchors": ["src/gf2e.c: irreducible_polynomials"]}
{"id": "C10", "title": "Storage width", "statement": "gf2e_degree_to_w returns for every supported degree e in 2..16 a width w in {2,4,8,16} with e<=w, w<2e when e>2 is not a power of two, and w divides 64, so an element never straddles two words; for any other degree it dies.", "quantifier": "all integer degrees", "why_tests_cant": "all degrees, and consequence for all column indices", "anchors": ["src/gf2e.h: gf2e_degree_to_w"]}
{"id": "C11", "title": "16-bit multiplication table", "statement": "gf2e_t16_init(ff,a)[i] multiplies each w-bit lane of the 16-bit index i by a modulo the minimal polynomial (including lanes that are not canonical elements), and is computed without reading outside a table exactly when every lane product is readable: for e<=8 the lane is < 2^e, for e>8 the polynomial product a*lane has degree < 2e. So the table is completely defined for degrees 2,4,8,15,16, and on canonical indices for every degree; the claim of the documentation (every index, every degree) is false: for degrees 3,5,6,7 (any a) and 9..14 (a = X^(e-1)) building the table reads out of bounds.", "quantifier": "all fields of degree 2..16, all a, all 2^16 indices", "why_tests_cant": "all fields and scalars; out-of-bounds reads are not observable as values", "anchors": ["src/gf2e.h: gf2e_t16_init"]}
{"id": "C12", "title": "Element access laws", "statement": "mzed_read_elem after mzed_write_elem at the same position returns the written element; writes and adds at (i,j) leave every other element and all padding bits unchanged; mzed_add_elem adds in the field.", "quantifier": "all matrices, positions, field elements, all fields of degree 2..16, hence all widths w in {2,4,8,16}", "why_tests_cant": "all positions in matrices of unbounded size", "anchors": ["src/mzed.h: mzed_read_elem, mzed_write_elem, mzed_add_elem", "src/m4ri_functions.h: __mzd_read_bits, __mzd_xor_bits, __mzd_clear_bits"]}
{"id": "C13", "title": "Row addition with column offset", "statement": "mzed_add_row(C,rc,A,ra,start_col) adds A[ra][j] to C[rc][j] for all j>=start_col and changes nothing else (other rows, columns < start_col, bits past the last column).", "quantifier": "all matrices, rows, start columns inside the matrix and widths", "why_tests_cant": "bit masks at both ends interact with every residue of start_col and ncols modulo 64/w", "anchors": ["src/mzed.h: mzed_add_row"]}
{"id": "C14", "title": "Scaled row addition", "statement": "mzed_add_multiple_of_row(C,rc,A,ra,x,start_col) sets C[rc][j] += x*A[ra][j] for all start_col<=j<ncols and changes nothing else (other rows, columns before start_col, padding bits).", "quantifier": "all fields, matrices, rows, scalars and start columns inside the matrix", "why_tests_cant": "unrolled per-width code with separate first/middle/last word cases: every residue of ncols and start_col must be right for all data", "anchors": ["src/mzed.h: mzed_add_multiple_of_row"]}
{"id": "C15", "title": "Row rescaling", "statement": "mzed_rescale_row(A,r,start_col,x) multiplies A[r][j] by x for all start_col<=j<ncols and changes nothing else.", "quantifier": "all fields, matrices, rows, scalars and start columns inside the matrix", "why_tests_cant": "as for scaled row addition", "anchors": ["src/mzed.h: mzed_rescale_row"]}
{"id": "C16", "title": "Row and column swaps", "statement": "mzed_row_swap and mzed_col_swap exchange exactly two rows/columns, mzed_copy_row copies exactly one row; mzed_col_swap_in_rows exchanges two columns in exactly the given row range, and swapping twice is the identity.", "quantifier": "all matrices with canonical entries and all indices", "why_tests_cant": "all positions", "anchors": ["src/mzed.h: mzed_row_swap, mzed_col_swap, mzed_col_swap_in_rows, mzed_copy_row"]}
{"id": "C17", "title": "Matrix addition", "statement": "mzed_add / mzd_slice_add compute the entrywise field sum, also when the result aliases an operand, and adding a matrix to itself gives zero.", "quantifier": "all matrices of equal dimensions over all fields", "why_tests_cant": "all matrices", "anchors": ["src/mzed.c: mzed_add", "src/mzd_slice.h: mzd_slice_add"]}
{"id": "C18", "title": "Scalar multiplication", "statement": "mzed_mul_scalar(C,a,B) with B having columns computes a*B entrywise whichever of its two strategies is selected (direct or 16-bit table), independent of size: every result returned is a*B, and the call is undefined (out-of-bounds read while building the table) exactly for degrees 3,5,6,7 with nrows*ncols >= 2^17, contrary to the documentation.", "quantifier": "all fields, scalars and matrices with canonical entries", "why_tests_cant": "the strategy switches at 2^17 entries; both must agree for all data", "anchors": ["src/mzed.c: mzed_mul_scalar"]}
{"id": "C19", "title": "Comparison and zero test", "statement": "mzed_cmp / mzd_slice_cmp return 0 exactly for equal matrices and mzed_is_zero / mzd_slice_is_zero return true exactly for zero matrices.", "quantifier": "all matrices", "why_tests_cant": "all pairs", "anchors": ["src/mzed.c: mzed_cmp, mzed_is_zero", "src/mzd_slice.h: mzd_slice_cmp, mzd_slice_is_zero"]}
{"id": "C20", "title": "Schoolbook multiplication", "statement": "mzed_mul_naive(C,A,B) and mzed_addmul_naive compute C=A*B and C+=A*B over GF(2^e).", "quantifier": "all fields, dimensions and matrices", "why_tests_cant": "all sizes and data", "anchors": ["src/mzed.c: mzed_mul_naive, mzed_addmul_naive, _mzed_mul_naive"]}
{"id": "C21", "title": "Newton-John tables", "statement": "After mzed_make_table(T,A,r,c), for every field element x the table row T[L[x]] equals x*A[r] in all columns >= c (and earlier blocks read by callers are zero).", "quantifier": "all fields, elements, rows, columns and stale table contents", "why_tests_cant": "2^e-entry tables reused across calls: stale data must never leak", "anchors": ["src/newton_john.c: mzed_make_table", "src/newton_john.h: njt_mzed_t"]}
{"id": "C22", "title": "Newton-John multiplication", "statement": "mzed_mul_newton_john / mzed_addmul_newton_john equal the schoolbook product for every blocksize and every remainder of ncols modulo the number of tables.", "quantifier": "all fields, dimensions (B with at least one column), block sizes >= 16, data", "why_tests_cant": "all residues and sizes", "anchors": ["src/newton_john.c: _mzed_mul_newton_john, _mzed_mul_newton_john0"]}
{"id": "C23", "title": "Strassen multiplication", "statement": "Every result that mzed_mul_strassen(C,A,B,cutoff) returns equals A*B, for every cutoff and all dimensions including those not divisible by the block split; and it terminates with a result whenever cutoff >= 128/w-1 and B has columns (below that the code can crash on blocks without columns: C23_violation).", "quantifier": "all dimensions, cutoffs and data", "why_tests_cant": "recursion over unbounded sizes with odd remainders", "anchors": ["src/strassen.c: _mzed_mul_strassen"]}
{"id": "C24", "title": "Strassen multiply-accumulate", "statement": "Every result that mzed_addmul_strassen(C,A,B,cutoff) returns equals C+A*B, for every cutoff and all dimensions; and it terminates with a result whenever cutoff >= 128/w-1 and B has columns (below that the code can crash: C23_violation).", "quantifier": "all dimensions, cutoffs and data", "why_tests_cant": "recursion over unbounded sizes with odd remainders", "anchors": ["src/strassen.c: _mzed_addmul_strassen"]}
{"id": "C25", "title": "Multiplication path independence", "statement": "For B with at least one column mzed_mul and mzed_addmul give A*B and C+A*B whichever algorithm the size/degree dispatch selects; incompatible dimensions or fields die instead of producing a result. (For B without columns the code can crash: C25_violation.)", "quantifier": "all fields, dimensions and data", "why_tests_cant": "dispatch thresholds depend on sizes up to thousands", "anchors": ["src/mzed.c: mzed_mul, mzed_addmul, _mzed_mul, _mzed_addmul, _mzed_mul_init"]}
{"id": "C26", "title": "Packed/sliced round trip", "statement": "mzed_slice followed by mzed_cling (and cling followed by slice) is the identity, and reading any element from either representation gives the same field element.", "quantifier": "all fields, dimensions and matrices with canonical entries", "why_tests_cant": "bit-twiddling on 64-bit words with tail cases for every width residue", "anchors": ["src/conversion.c: mzed_slice, mzed_cling, _mzed_slice2, _mzed_slice4, _mzed_cling2, _mzed_cling4", "src/conversion_slice8.c", "src/conversion_slice16.c", "src/conversion_cling8.c", "src/conversion_cling16.c"]}
{"id": "C27", "title": "Karatsuba formulas", "statement": "For every degree e in 2..16 the Karatsuba routines add to the result slices the exact product polynomial of the two slice vectors (unreduced when no field is given, reduced modulo the minimal polynomial when one is given).", "quantifier": "all matrices over GF(2) as coefficients, all degrees 2..16, all minimal polynomials", "why_tests_cant": "hand-unrolled formulas with up to 3^4 products: exactness for all matrices", "anchors": ["src/karatsuba.c: _mzd_ptr_addmul_karatsuba2.._mzd_ptr_addmul_karatsuba16", "src/mzd_ptr.h: _mzd_ptr_add_modred"]}
{"id": "C28", "title": "Sliced multiplication", "statement": "mzd_slice_mul / mzd_slice_addmul (naive, Karatsuba) compute the matrix product over GF(2^e), entry by entry.", "quantifier": "all fields, dimensions and data", "why_tests_cant": "all sizes and data", "anchors": ["src/mzd_slice.h: mzd_slice_mul, _mzd_slice_addmul_naive, _mzd_slice_addmul_karatsuba"]}
{"id": "C29", "title": "Triangular solving", "statement": "mzed_trsm_lower_left_naive / newton_john (and upper, and sliced variants) overwrite B with the unique X such that L*X=B (U*X=B), using only the stated triangle of the coefficient matrix, when its diagonal is non-zero.", "quantifier": "all fields, sizes and data with invertible triangle", "why_tests_cant": "all sizes", "anchors": ["src/trsm.c", "src/newton_john.c: mzed_trsm_lower_left_newton_john, mzed_trsm_upper_left_newton_john"]}
{"id": "C30", "title": "Recursive triangular solving", "statement": "_mzed_trsm_lower_left / _upper_left and the sliced versions, with any cutoff >= 64 (the library default is 512), terminate and overwrite B (at least one column) with the unique solution, word for word what the naive solver produces, for every size. (With a cutoff below both dimensions and fewer than 64 rows they instead form windows outside the matrix.)", "quantifier": "all sizes, data, cutoffs", "why_tests_cant": "recursion over unbounded sizes; termination", "anchors": ["src/trsm.inl"]}
{"id": "C31", "title": "PLE decomposition (naive)", "statement": "mzed_ple_naive returns the rank r, permutations P,Q and overwrites A so that with lower triangular part L (diagonal included) and echelon part E, P*A = L*E; Q lists the pivot columns in increasing order.", "quantifier": "all fields, dimensions and matrices", "why_tests_cant": "all ranks/profiles", "anchors": ["src/ple.c: mzed_ple_naive"]}
{"id": "C32", "title": "PLE decomposition (Newton-John)", "statement": "mzed_ple_newton_john yields a valid PLE decomposition with the rank and pivot columns of the input.", "quantifier": "all fields, dimensions and matrices", "why_tests_cant": "all ranks/profiles", "anchors": ["src/newton_john.c: mzed_ple_newton_john"]}
{"id": "C33", "title": "PLE decomposition (recursive) and PLUQ", "statement": "_mzd_slice_ple / _mzed_ple with any cutoff yield a valid PLE decomposition with the rank and column rank profile of the input, and _mzd_slice_pluq a valid PLUQ decomposition.", "quantifier": "all fields, dimensions, matrices and cutoffs", "why_tests_cant": "recursion with column splits, permutation composition and L-compression", "anchors": ["src/ple.c: _mzed_ple, _mzd_slice_ple, _mzd_slice_pluq"]}
{"id": "C34", "title": "Gaussian elimination (naive)", "statement": "mzed_echelonize_naive(A,full) returns the rank, leaves A in row echelon form with unit pivots (reduced if full) and the rows of the result span the same space as the rows of the input.", "quantifier": "all fields, dimensions and matrices", "why_tests_cant": "all ranks/profiles", "anchors": ["src/mzed.c: mzed_echelonize_naive"]}
{"id": "C35", "title": "Gaussian elimination (Newton-John)", "statement": "mzed_echelonize_newton_john(A,full) returns the same rank and (for full) the same reduced row echelon form as the naive algorithm.", "quantifier": "all fields, dimensions and matrices, every block size selection", "why_tests_cant": "the number of tables adapts to size and remaining columns", "anchors": ["src/newton_john.c: mzed_echelonize_newton_john, _mzed_gauss_submatrix_full"]}
{"id": "C36", "title": "Gaussian elimination (PLE)", "statement": "mzed_echelonize_ple / mzd_slice_echelonize_ple return the rank and leave A in (reduced, if full) row echelon form with the same row space.", "quantifier": "all fields, dimensions and matrices", "why_tests_cant": "as above", "anchors": ["src/echelonform.c"]}
{"id": "C37", "title": "Matrix inversion", "statement": "mzed_invert_newton_john(B,A) returns B with A*B = B*A = I when A is invertible and dies for singular input (with B = NULL; a given B, which may be A itself, is the subject of C68).", "quantifier": "all fields, sizes, square matrices", "why_tests_cant": "all matrices", "anchors": ["src/newton_john.c: mzed_invert_newton_john"]}
{"id": "C38", "title": "Permutations", "statement": "apply_p_left_trans undoes apply_p_left, apply_p_right_trans undoes apply_p_right, for packed and sliced matrices; they permute whole rows/columns and never change entries, also when the permutation is longer or shorter than the matrix.", "quantifier": "all permutations in LAPACK style and all matrices", "why_tests_cant": "all permutations", "anchors": ["src/permutation.h", "src/mzd_slice.h"]}
{"id": "C39", "title": "Polynomial multiplication over GF(2) matrices", "statement": "_mzd_poly_addmul_naive and _mzd_poly_addmul_karatsubs_balanced add the exact product of two polynomials with matrix coefficients over GF(2) to C (or return the product if C is NULL) and change nothing else; Karatsuba dies for unequal depths, depth 0 and depth > 16.", "quantifier": "all depths (Karatsuba: 1..16), dimensions, coefficient matrices and contents of C", "why_tests_cant": "all data", "anchors": ["src/mzd_poly.h: _mzd_poly_addmul_naive, _mzd_poly_addmul_karatsubs_balanced, mzd_poly_init"]}
{"id": "C40", "title": "CRT multiplication schemes are exact", "statement": "For lengths with f_len+g_len <= 130487, crt_init(f_len,g_len) returns; the scheme is either the all-zero one or uses no more moduli of each degree than there are irreducible polynomials, determines at least f_len+g_len-1 coefficients and costs fewer than f_len*g_len products. Every map that blm_init_crt returns for a scheme with distinct moduli and enough degree computes the product of polynomials exactly (reduced modulo the minimal polynomial if a field is given). blm_init_crt returns exactly when the products of coefficient pairs v<=w span; the theorems also record where the code fails: length 1 gives the all-zero scheme, f_len > g_len never returns, (4,4) loops for ever, (3,24) reads out of bounds; for all lengths up to 16 they say exactly which case happens.", "quantifier": "all lengths, all schemes, all operand polynomials", "why_tests_cant": "all length pairs and all schemes", "anchors": ["src/blm.c: crt_init, blm_init_crt, _blm_finish_polymult", "src/blm.h"]}
{"id": "C41", "title": "Bilinear map application", "statement": "For every bilinear map (F,G,H), applying it by the matrix method adds H(Fa . Gb) to the output vector; applying it by the compiled straight-line (DJB) method stores that value. The two agree whenever the output vector is zero, and are shown to differ otherwise.", "quantifier": "all maps and all matrix vectors", "why_tests_cant": "all maps", "anchors": ["src/blm.c: _mzd_ptr_apply_blm_mzd, _mzd_ptr_apply_blm_djb", "src/mzd_ptr.c"]}
{"id": "C42", "title": "Entries stay canonical", "statement": "Every public operation that starts from matrices whose entries are < 2^e produces matrices whose entries are < 2^e (randomize, set_ui, write/add elem, row operations, add, scalar multiplication, products, solving, decompositions, conversions, windows, ...), even though each entry is stored in w>=e bits: after any program every element read from any matrix or window is below 2^e.", "quantifier": "all finite sequences of calls, all fields, dimensions and data", "why_tests_cant": "unbounded histories of operations", "anchors": ["src/mzed.c: mzed_randomize, mzed_set_ui", "src/mzed.h"]}
{"id": "C43", "title": "Block construction", "statement": "mzed_concat, mzed_stack, mzed_submatrix, mzed_copy and mzed_init_window (whose left column must start a machine word) place exactly the documented entries; concat/stack followed by the matching submatrix gives back the parts.", "quantifier": "all dimensions and matrices", "why_tests_cant": "all positions", "anchors": ["src/mzed.c: mzed_concat, mzed_stack, mzed_submatrix, mzed_copy", "src/mzed.h: mzed_init_window"]}
{"id": "C44", "title": "Scalar matrices", "statement": "mzed_set_ui(A,x) gives the matrix with x on the main diagonal and zero elsewhere, and set_ui(A,1) is a multiplicative identity: mzed_mul by it from the left or the right gives word for word a copy of the other operand.", "quantifier": "all fields, dimensions, elements", "why_tests_cant": "all sizes", "anchors": ["src/mzed.c: mzed_set_ui", "src/mzd_slice.c: mzd_slice_set_ui"]}
{"id": "C45", "title": "First zero row", "statement": "mzed_first_zero_row returns the number of rows up to and including the last non-zero row; on an echelon form it is the rank.", "quantifier": "all matrices", "why_tests_cant": "all matrices", "anchors": ["src/mzed.h: mzed_first_zero_row"]}
{"id": "C46", "title": "Sliced scalar multiplication", "statement": "For C and B different matrices mzd_slice_mul_scalar(C,a,B) gives a*B and mzd_slice_addmul_scalar gives C+a*B, entrywise in the field. (With C == B the code destroys its input: C46_violation_alias.)", "quantifier": "all fields, scalars, matrices", "why_tests_cant": "all data", "anchors": ["src/mzd_slice.h: mzd_slice_mul_scalar, mzd_slice_addmul_scalar"]}
{"id": "C47", "title": "Sliced element access", "statement": "mzd_slice_read_elem/write_elem/add_elem obey the same laws as the packed accessors and agree with the packed representation.", "quantifier": "all fields, positions, elements", "why_tests_cant": "all positions", "anchors": ["src/mzd_slice.h: mzd_slice_read_elem, mzd_slice_write_elem, mzd_slice_add_elem"]}
{"id": "C48", "title": "Sliced row rescaling", "statement": "mzd_slice_rescale_row(A,r,c,x) is documented to multiply row r of A from column c by x. Every result it returns is exactly that; but it accesses rows outside its one-row temporary (and has no defined result) for every r >= 1, so it is defined exactly for r = 0.", "quantifier": "all rows", "why_tests_cant": "all rows", "anchors": ["src/conversion.h: mzd_slice_rescale_row"]}
{"id": "C49", "title": "Newton-John multi-table width is safe", "statement": "The number of pivots processed together by mzed_echelonize_newton_john always satisfies kk*w <= 64 (all multipliers are read with a single word read) and stays between 1 and 6.", "quantifier": "all degrees, all sizes, all values of the M4RI heuristic", "why_tests_cant": "heuristic depends on size", "anchors": ["src/newton_john.c: mzed_echelonize_newton_john"]}
{"id": "C50", "title": "Non-overlapping in-place products", "statement": "Strassen's intermediate products never read a block after it was overwritten: the result is correct although temporaries are shared between the seven products.", "quantifier": "all dimensions and data", "why_tests_cant": "schedule of operations for all data", "anchors": ["src/strassen.c"]}
{"id": "C51", "title": "Sliced row and column operations", "statement": "mzd_slice_row_swap, mzd_slice_col_swap, mzd_slice_col_swap_in_rows, mzd_slice_copy_row and mzd_slice_row_add act on the field elements exactly as their names say and change nothing else (also not the padding or, for windows, the parent matrix).", "quantifier": "all fields, dimensions, indices and data", "why_tests_cant": "all data; padding bits and parents of windows are not visible through the API", "anchors": ["src/mzd_slice.h: mzd_slice_row_swap, mzd_slice_col_swap, mzd_slice_col_swap_in_rows, mzd_slice_copy_row, mzd_slice_row_add"]}
{"id": "C52", "title": "Sliced copy, blocks and windows", "statement": "mzd_slice_set_ui, mzd_slice_copy, mzd_slice_concat, mzd_slice_stack, mzd_slice_submatrix and windows of sliced matrices (left column a multiple of 64) select exactly the elements named by their arguments; writing through a window changes the named block of the parent only.", "quantifier": "all fields, dimensions, offsets and data", "why_tests_cant": "all offsets and data", "anchors": ["src/mzd_slice.h: mzd_slice_set_ui, mzd_slice_copy, mzd_slice_concat, mzd_slice_stack, mzd_slice_submatrix, mzd_slice_init_window"]}
{"id": "C53", "title": "mzed_echelonize selects among equivalent algorithms", "statement": "mzed_echelonize(A,full) returns the rank and leaves A in (reduced, if full) row echelon form with the same row space, whichever of the naive, Newton-John and PLE based algorithms it selects; with full the result is bit for bit that of the naive algorithm.", "quantifier": "all fields, dimensions, matrices and selection outcomes (including those caused by overflow in the size comparison)", "why_tests_cant": "the selection depends on dimensions, field and cache size", "anchors": ["src/echelonform.c: mzed_echelonize"]}
{"id": "C54", "title": "Bilinear-map matrix multiplication", "statement": "mzed_mul_blm / mzd_slice_mul_blm give A*B whatever C contained, and mzed_addmul_blm / mzd_slice_addmul_blm give C + A*B, with the default map and with every map returned by blm_init_crt for a sufficient scheme; operands that do not fit die.", "quantifier": "all supported fields, dimensions, matrices, schemes", "why_tests_cant": "all inputs; all maps", "anchors": ["src/mzd_slice.h: mzd_slice_mul_blm, mzd_slice_addmul_blm, _mzd_slice_mul_blm", "src/conversion.h: mzed_mul_blm, mzed_addmul_blm"]}
{"id": "C55", "title": "Polynomial multiplication through bilinear maps, CRT and evaluation/interpolation", "statement": "_mzd_poly_addmul_blm, _mzd_poly_addmul_crt and _mzd_poly_addmul_ext1 compute C + A*B for matrices over GF(2)[x]; where they do not (crt overwrites C, loses the result for C == NULL, never returns for depth 4; ext1 crashes for products with fewer than 3 coefficients) the exact behaviour is stated.", "quantifier": "all depths (ext1: products with 3..65536 coefficients), dimensions, coefficient matrices, exact bilinear maps", "why_tests_cant": "all depths and data; the interpolation field depends on the depths", "anchors": ["src/mzd_poly.h: _mzd_poly_addmul_blm, _mzd_poly_addmul_crt", "src/mzd_poly.c: _mzd_poly_addmul_ext1, mzd_slice_addmul_mzd"]}
{"id": "C56", "title": "Polynomial addition, depth change, comparison", "statement": "mzd_poly_add writes A+B to the first coefficients of C and nothing else; _mzd_poly_adapt_depth keeps the low coefficients and pads with zeros within the allocated capacity (growing a fresh polynomial writes out of bounds); mzd_poly_cmp is 0 exactly for equal polynomials.", "quantifier": "all depths, dimensions, coefficient matrices", "why_tests_cant": "all data", "anchors": ["src/mzd_poly.h: mzd_poly_add, _mzd_poly_add, _mzd_poly_adapt_depth, mzd_poly_cmp"]}
{"id": "C57", "title": "Change of depth of sliced matrices", "statement": "_mzd_slice_adapt_depth to a depth between the degree of the field and 16 keeps every entry and appends zero slices; going back restores the matrix exactly; a depth below the degree fails its assertion and a depth above 16 writes beyond the array of slices.", "quantifier": "all fields, dimensions, entries, depths", "why_tests_cant": "all depths and data", "anchors": ["src/mzd_slice.h: _mzd_slice_adapt_depth"]}
{"id": "C58", "title": "Histories: every sequence of API calls refines abstract matrix algebra", "statement": "Any program that creates, fills, reads, converts, copies, adds, multiplies, concatenates, cuts, echelonizes, inverts, solves with, compares and frees any number of packed and sliced matrices, calling each function only where its documented preconditions (plus the exclusions proved necessary elsewhere) hold, never dies and returns exactly what the same sequence of operations on mathematical matrices over GF(2^e) returns, leaving the corresponding matrices behind; in particular no call disturbs a matrix it does not write to, padding never leaks into results, and no call changes anything stored outside the matrix it writes to (padding bits; for a window, the rest of the parent).", "quantifier": "all finite sequences of 25 API functions, any number of matrices in both representations, all dimensions, entries, fields and configurations of M4RI", "why_tests_cant": "unbounded histories with state carried between calls (padding bits, representation changes)", "anchors": ["src/mzed.h", "src/mzd_slice.h", "src/echelonform.h", "src/trsm.h", "src/newton_john.h"]}
{"id": "C59", "title": "Windows: programs using views into matrices, nested and overlapping, refine matrices with rectangles", "statement": "A window shows exactly the rectangle of its matrix, also when it is a window into a window; any program mixing API calls on matrices and on windows (started at word boundaries, operands not overlapping the destination, a matrix not released while windows show it) never dies and returns what the same operations on mathematical matrices and their rectangles return: a call that writes to a window changes exactly the rectangle of the parent, every other window and the parent see the change, nothing else changes, and releasing a window leaves the matrix intact. Windows without a common entry have no memory word in common.", "quantifier": "all finite sequences of calls, window positions, nesting depths, sizes, fields and both representations", "why_tests_cant": "unbounded histories; aliasing between views is only visible for particular combinations of offset, width and call order", "anchors": ["src/mzed.h:mzed_init_window", "src/mzed.h:mzed_free_window", "src/mzd_slice.h:mzd_slice_init_window", "src/mzd_slice.h:mzd_slice_free_window"]}
{"id": "C60", "title": "Printed matrices can be read back, and both representations print the same text", "statement": "The text printed for a matrix, read as rows of hexadecimal numbers in brackets, is exactly the matrix; every line has the same length (columns are aligned); a packed and a sliced matrix with the same entries print the same text.", "quantifier": "all matrices, dimensions (also zero) and fields GF(2^e), 2<=e<=16", "why_tests_cant": "unbounded dimensions and entries; the field width depends on the degree", "anchors": ["src/mzed.c:mzed_print", "src/mzd_slice.c:mzd_slice_print"]}
{"id": "C61", "title": "No leaks, no dangling pointers: every routine releases exactly what it creates", "statement": "Every routine of the library, called with live matrices (or NULL for an output where documented), never uses or releases an object that does not exist, never releases an object into which a window still exists, never releases an argument; when it returns, every temporary it created (matrices, windows, tables, permutations, slices, maps, buffers) is released, and the only new object is the one it returns. So in any session of calls, creations and releases the heap holds exactly what the caller holds. (The construction of bilinear maps violates this: it leaves matrices behind.)", "quantifier": "all routines, all ways to pass NULL, all heaps and (aliasing) arguments, all executions: any loop counts, recursion depths, outcomes of tests on data; all sessions of any length", "why_tests_cant": "release must happen on every path of every branch and recursion; leak checkers only see the paths taken", "anchors": ["src/newton_john.c", "src/strassen.c", "src/ple.c", "src/echelonform.c", "src/trsm.c", "src/conversion.h", "src/mzd_slice.h", "src/blm.c", "src/mzd_poly.h"]}
{"id": "C62", "title": "Constructors and destructors, block by block: complete objects, no overlap, exact restoration", "statement": "Every constructor (field, packed and sliced matrix, windows of both, Newton-John table, polynomial, bilinear map) writes only inside blocks it has just obtained, never reads a cell it has not written, and returns a complete object made of new blocks, leaving all other memory unchanged; every destructor releases each block of its object exactly once and nothing else, so that creating and releasing restores the memory exactly; changing the depth and the routines with arrays of temporaries (application of a compiled bilinear map, multiplication by evaluation) behave likewise. In any history of such calls no call faults, objects never share a block, no block is lost. Exceptions: releasing a map without compiled programs, the product of two constants by evaluation, extension of a polynomial (of a slice beyond 16) write or release where they must not.", "quantifier": "all allocators (any addresses, failure at any request), all memories, all defining polynomials of degree 1 to 16, all depths, numbers of products and evaluation points, all histories of calls of any length and order", "why_tests_cant": "out of bounds accesses of tables depend on the defining polynomial and the sizes; the number of histories is infinite, and allocation failures can happen at any point", "anchors": ["src/gf2e.c:gf2e_init", "src/gf2e.c:gf2e_free", "src/mzed.c:mzed_init", "src/mzed.h:mzed_init_window", "src/mzd_slice.h:mzd_slice_init", "src/mzd_slice.h:mzd_slice_init_window", "src/mzd_slice.h:_mzd_slice_adapt_depth", "src/newton_john.c:njt_mzed_init", "src/mzd_poly.h:mzd_poly_init", "src/mzd_poly.h:_mzd_poly_adapt_depth", "src/blm.c:blm_free", "src/blm.c:_mzd_ptr_apply_blm_djb", "src/mzd_poly.c:_mzd_poly_addmul_ext1"]}
{"id": "C63", "title": "No undefined behaviour at word level", "statement": "For every field and every matrix or window the API can produce, the field operations, entry accesses, row and column operations, setting to a scalar, scalar multiplication, conversions between the representations, cubic and Newton-John multiplication, both row reductions, triangular solving (naive and Newton-John) and PLE (naive and Newton-John) never access a word outside a row, a row outside the matrix or a table outside its bounds, never shift a word by 64 or more, never overflow an int, and never fail an assertion; and they return what the arithmetic properties say. Exceptions: matrices without columns in row scaling, start columns outside the matrix, rows with 2^31 bits or more, arguments that are not field elements, and scalar multiplication of large matrices over degrees 3, 5, 6, 7.", "quantifier": "all defining polynomials of degree 2 to 16, all matrix shapes (also empty ones) and windows with any alignment of the end of the row, all contents, all start columns, pivots and table sizes, with and without assertions compiled in", "why_tests_cant": "the code switches on the residue of the row length modulo the word and on the alignment of the start; an access one word too far is usually silent; shifts by 64 behave differently between compilers", "anchors": ["src/mzed.h:mzed_add_row", "src/mzed.c:mzed_rescale_row", "src/mzed.c:mzed_add_multiple_of_row", "src/mzed.c:mzed_mul_scalar", "src/newton_john.c", "src/trsm.c", "src/ple.c", "src/conversion_slice8.c", "src/conversion_slice16.c", "src/conversion_cling8.c", "src/conversion_cling16.c", "src/gf2x.h", "src/gf2e.h"]}
{"id": "C64", "title": "No undefined behaviour in the recursive algorithms", "statement": "For every field and all matrices or windows of matching dimensions, Strassen multiplication (with and without accumulation, every cutoff), Karatsuba multiplication, the multiplication dispatch of packed matrices, recursive triangular solving in both representations, and recursive PLE, PLUQ and echelonization never create a window outside its parent or not at a word boundary, never call M4RI with operands whose dimensions do not fit, never use an index outside a slice, a table or a permutation, never overflow an int and never fail an assertion; every step does what the arithmetic properties say. Exceptions: unusable cutoffs, right-hand sides without columns, permutations shorter than the matrix, rows with 2^31 bits or more, and the choosing echelonization of matrices with 2^31 bits or more, where the comparison of the size with the cache overflows an int.", "quantifier": "all defining polynomials of degree 2 to 16, all shapes, contents, cutoffs, block sizes and recursion depths, with and without assertions compiled in", "why_tests_cant": "the splitting points depend on the dimensions modulo the word size, and the ranks found in the left half decide the windows of the right half; a window one column off reads valid memory and usually gives the right answer", "anchors": ["src/strassen.c:_mzed_mul_strassen", "src/strassen.c:_mzed_addmul_strassen", "src/karatsuba.c", "src/mzd_slice.h:_mzd_slice_addmul_karatsuba", "src/mzed.c:_mzed_mul", "src/mzed.c:_mzed_addmul", "src/trsm.inl", "src/ple.c:_mzd_slice_ple", "src/ple.c:_mzd_slice_pluq", "src/echelonform.c:mzed_echelonize_ple"]}
{"id": "C65", "title": "Programs with permutations, decompositions and named algorithms refine matrix algebra", "statement": "Any program that, besides the calls of C58, creates and frees permutations, applies them (or their inverses) to rows and columns, computes PLE decompositions (choosing, naive or Newton-John) and PLUQ decompositions, adds and copies single rows, asks for the first zero row, adds multiples of a matrix, and names the algorithm for multiplication, accumulation, echelonization and triangular solving (naive, Newton-John, Strassen with a cutoff of at least 128/w-1, Karatsuba, bilinear maps, PLE), never dies and behaves like the same sequence of operations on mathematical matrices and permutations. The named algorithms leave word for word the same memory behind as the default one (except for echelon forms that are not reduced). In particular the usual recipe - decompose, permute the right-hand side, solve with the lower factor, put ones on the diagonal of a copy, solve with the upper factor - leaves A^-1*B behind for every nonsingular A, in both representations.", "quantifier": "all finite sequences of 39 kinds of calls on any number of matrices and permutations, all dimensions, entries, fields, cutoffs and configurations of M4RI", "why_tests_cant": "unbounded histories; permutations produced by one call are consumed by others with the opposite convention (transposition lists, rows versus columns, transposed), and every pair of algorithms has to agree on every input", "anchors": ["src/permutation.h", "src/ple.h", "src/ple.c", "src/newton_john.c", "src/strassen.c", "src/conversion.h", "src/mzd_slice.h", "src/trsm.h", "src/echelonform.h"]}
{"id": "C66", "title": "No permitted program triggers undefined behaviour or a failed assertion", "statement": "Any program made of the 39 kinds of calls of C65 whose calls the specification permits, and whose matrices have at least one column, fewer than 2^31 rows and rows of fewer than 2^31 bits (and for which the int products of mzed_echelonize, mzed_mul_scalar and mzed_invert_newton_john fit), runs to its end without ever accessing a word outside a row, a row outside a matrix, a plane outside a slice, or an index outside a table or permutation, without shifting a word by 64 or more, overflowing an int, violating a precondition of M4RI (including the assertion that a permutation only swaps with later indices) or failing an assertion; and it returns and leaves behind exactly what the arithmetic properties say.", "quantifier": "all finite sequences of calls on any number of matrices and permutations, all dimensions within the int range, entries, fields, cutoffs and configurations of M4RI, with and without assertions compiled in", "why_tests_cant": "unbounded histories; out-of-bounds reads and too long shifts are usually silent, and whether a call is in bounds depends on the shapes and permutations produced by earlier calls", "anchors": ["src/mzed.h", "src/mzed.c", "src/mzd_slice.h", "src/mzd_slice.c", "src/permutation.h", "src/ple.c", "src/newton_john.c", "src/trsm.c", "src/strassen.c", "src/karatsuba.c", "src/blm.c:_mzd_ptr_apply_blm_djb", "src/mzd_ptr.h", "src/conversion.h", "src/echelonform.c"]}
{"id": "C67", "title": "Programs mixing windows, permutations, decompositions and named algorithms", "statement": "Any program made of all 39 kinds of calls of C65 plus creating and releasing windows (also windows of windows), in which every operand may be a matrix or a window, never dies and behaves like the same sequence of operations on mathematical matrices of which some are rectangles of others, provided operands other than the destination share no entry with it and windows start at word boundaries. No entry outside the rectangle shown by the destination of a call changes, in any matrix. With dimensions within the int range and at least one column, no such program triggers undefined behaviour, violates a precondition of M4RI or fails an assertion.", "quantifier": "all finite sequences of calls on any number of matrices, windows at any nesting, and permutations; all dimensions, alignments, entries, fields, cutoffs and configurations of M4RI; with and without assertions compiled in", "why_tests_cant": "the number of ways to nest and alias windows across 41 calls is unbounded, and a routine that clobbers the columns of the parent that share the last word with the window goes unnoticed unless exactly those columns are inspected", "anchors": ["src/mzed.h:mzed_init_window", "src/mzd_slice.h:mzd_slice_init_window", "src/permutation.h", "src/ple.c", "src/newton_john.c", "src/strassen.c", "src/trsm.c", "src/echelonform.c", "src/mzed.c", "src/mzd_slice.c"]}
{"id": "C68", "title": "Output arguments: NULL, given, or identical with an input", "statement": "mzed_add, mzed_copy, mzed_mul_scalar, mzed_mul_naive, mzed_addmul_naive, mzed_mul_karatsuba, mzed_addmul_karatsuba, mzed_concat, mzed_stack, mzed_submatrix and mzed_invert_newton_john accept NULL or a matrix of the right shape as output, return that matrix holding the documented result, and change no other matrix and nothing outside the columns of the output. For mzed_add, mzed_copy, mzed_mul_scalar, mzed_addmul_karatsuba and mzed_invert_newton_john the output may be one of the inputs; outputs or operands of the wrong shape or field make the functions die. (The products need a separate output: mzed_mul_naive(A,A,B), mzed_mul_karatsuba(A,A,B) return the zero matrix, mzed_addmul_naive(A,A,B) returns a wrong result.)", "quantifier": "all fields, dimensions, entries, and all choices of output argument including the operands themselves", "why_tests_cant": "whether a word is overwritten before it is read again depends on the position, the size and the algorithm chosen; tests use separate outputs", "anchors": ["src/mzed.c: mzed_add, mzed_copy, mzed_mul_scalar, _mzed_mul_init, _mzed_mul_naive", "src/mzed.h: mzed_concat, mzed_stack, mzed_submatrix", "src/conversion.h: _mzed_addmul_karatsuba, mzed_mul_karatsuba, mzed_addmul_karatsuba", "src/newton_john.c: mzed_invert_newton_john"]}
{"id": "C69", "title": "Calls from several threads", "statement": "If several threads each run a sequence of calls, and no matrix or permutation that one thread writes, creates or releases is read or written by another, then every interleaving of the calls gives the same result: each call returns what it returns when its thread runs alone, every variable ends up as its thread left it, matrices that are only read stay unchanged, and the program dies in one interleaving exactly if some thread alone would die, hence in all of them. Threads may share any number of matrices they only read (and the field). Threads may also write to disjoint windows of the same matrix, made before the threads start: then every order of the calls succeeds if one is permitted, and the results of every thread and the final contents of all matrices are those the specification gives for that one order (the same in all orders for calls whose outcome is unique). The library keeps no state between calls besides the objects passed to it.", "quantifier": "all numbers of threads, all sequences of calls of C65 per thread, all interleavings of whole calls, all objects, sizes and data (calls whose results are not otherwise specified included)", "why_tests_cant": "the number of interleavings grows exponentially with the number of calls; hidden shared state shows up in rare schedules only", "anchors": ["src/mzed.h", "src/mzd_slice.h", "src/gf2e.h:gf2e", "src/newton_john.c", "src/strassen.c", "src/ple.c", "src/trsm.c", "src/echelonform.c", "src/permutation.h"]}
{"id": "C70", "title": "Algebraic laws word for word", "statement": "mzed_mul is associative and distributes over mzed_add from both sides, mzed_addmul(C,A,B) equals mzed_add of C and mzed_mul(A,B), mzed_mul_scalar commutes with mzed_mul in either operand, mzed_add is commutative, associative and its own inverse, multiplying by A and then by the result of mzed_invert_newton_john(A) gives back the operand, the same associativity and distributivity hold for mzd_slice_mul and mzd_slice_add, and slicing or packing commutes with multiplication and addition. Both sides of each law are equal in every bit of the result, whatever the output matrices held before and whichever algorithms the dispatcher picks for the sizes involved.", "quantifier": "all fields, dimensions that fit together (at least one column), entries, previous contents of the outputs, cache sizes", "why_tests_cant": "the two sides of a law take different code paths depending on the sizes (Karatsuba, Strassen with peeling, Newton-John tables, sliced), and sizes and data are unbounded", "anchors": ["src/mzed.c: mzed_mul, mzed_addmul, mzed_add, mzed_mul_scalar", "src/mzd_slice.h: mzd_slice_mul, mzd_slice_add", "src/conversion.c: mzed_slice, mzed_cling", "src/newton_john.c: mzed_invert_newton_john"]}
{"id": "C71", "title": "Output arguments of the sliced functions: NULL, given, or identical with an input", "statement": "mzd_slice_copy, mzd_slice_add, mzd_slice_mul_scalar, mzd_slice_addmul_scalar, mzd_slice_mul(_karatsuba), mzd_slice_addmul(_karatsuba), mzd_slice_mul_blm, mzd_slice_addmul_blm, mzd_slice_concat, mzd_slice_stack and mzd_slice_submatrix accept NULL (where documented) or a matrix of the right shape as output, return that matrix holding the documented result and change no other matrix and nothing outside the columns of the output. For mzd_slice_copy, mzd_slice_add and mzd_slice_addmul_blm the output may be one of the inputs; wrong shapes or fields make the functions die. (The others need a separate output: mzd_slice_mul(A,A,B) and mzd_slice_mul_blm(A,A,B) return the zero matrix, mzd_slice_addmul(A,A,B) and mzd_slice_addmul_scalar(A,a,A) a wrong result.)", "quantifier": "all fields, dimensions, entries, and all choices of output argument including the operands themselves", "why_tests_cant": "whether a slice is overwritten before it is read again depends on the degree, the entries and the algorithm; tests use separate outputs", "anchors": ["src/mzd_slice.h: mzd_slice_copy, mzd_slice_add, mzd_slice_mul_karatsuba, mzd_slice_addmul_karatsuba, mzd_slice_mul_blm, mzd_slice_addmul_blm, mzd_slice_concat, mzd_slice_stack, mzd_slice_submatrix", "src/mzd_slice.c: mzd_slice_mul_scalar, mzd_slice_addmul_scalar, _mzd_slice_addmul_naive", "src/mzd_ptr.h: _mzd_ptr_add_modred, _mzd_ptr_add_to_all, _mzd_ptr_add", "src/karatsuba.c: _mzd_ptr_addmul_karatsuba2 .. 16"]}
{"id": "C72", "title": "Programs on matrices over GF(2)[x] refine matrices of polynomials", "statement": "Any program that creates, fills (mzd_poly_randomize or single bits), reads, adds (with and without offset, also in place), multiplies (naive, Karatsuba, evaluation/interpolation; into an existing or a new matrix), truncates or re-extends, compares and frees any number of polynomial matrices, within the documented domains and the exclusions proved necessary elsewhere, never dies and returns exactly what the same operations on mathematical matrices over GF(2)[x] return. (Excluded and shown wrong: adding with an offset into the second operand when the first has more than 32 coefficients.)", "quantifier": "all programs (finite sequences of calls) on any number of variables, all dimensions, depths, coefficients, random bits", "why_tests_cant": "all histories and all data; the order in which coefficients are treated changes at depth 33", "anchors": ["src/mzd_poly.h: mzd_poly_init, mzd_poly_free, mzd_poly_randomize, mzd_poly_add, _mzd_poly_add, _mzd_poly_adapt_depth, _mzd_poly_addmul_naive, _mzd_poly_addmul_karatsubs_balanced, mzd_poly_cmp", "src/mzd_poly.c: _mzd_poly_addmul_ext1", "src/mzd_ptr.h: _mzd_ptr_add"]}
{"id": "C73", "title": "Threads may be interleaved between any two word accesses", "statement": "Several threads call element, row, product, triangular-solve and elimination functions on packed matrices (or windows). Each call is a sequence of single reads and writes of 64-bit words, in the order of the C code, and the threads are interleaved between any two of them. If no thread writes a word another one reads or writes, then for every interleaving every thread finishes after exactly the accesses it makes when alone, its calls return what they return alone, its matrices hold what they hold when it runs alone, and no other word changes. Threads may decide by the results of their calls what to call next. Different rows, and windows on disjoint rectangles (they start at word boundaries), never share a word, so e.g. a product distributed over threads by blocks of rows is the product. Elements in one row may share a word: two threads writing neighbouring elements can lose an update.", "quantifier": "all fields, matrices, windows, numbers of threads, lists of calls and result-dependent programs of calls per thread, initial memories and all schedules of single word accesses", "why_tests_cant": "the number of interleavings of word accesses is astronomical, a test sees one of them", "anchors": ["src/mzed.h: mzed_read_elem, mzed_write_elem, mzed_add_elem, mzed_add_row, mzed_rescale_row, mzed_init_window", "src/mzed.c: mzed_add_multiple_of_row, mzed_set_ui, mzed_mul_naive, mzed_addmul_naive, mzed_echelonize_naive", "src/trsm.c: mzed_trsm_upper_left_naive, mzed_trsm_lower_left_naive", "src/m4ri_functions.h: __mzd_read_bits, __mzd_xor_bits, __mzd_clear_bits"]}
{"id": "C74", "title": "Randomisation is uniform", "statement": "If random() delivers independent values uniform on [0,2^31) and M4RI's mzd_randomize independent uniform bits, then after mzed_randomize, resp. mzd_slice_randomize, the matrix read back is uniformly distributed over all matrices of its size over GF(2^e): each comes out with probability (2^e)^-(m n), whatever the matrix held before; after mzd_poly_randomize the coefficients are independent uniform bits.", "quantifier": "all fields, dimensions, depths, previous contents, all values of the source of randomness", "why_tests_cant": "a test sees a sample; uniformity is a statement about all outcomes (and would fail unnoticed, e.g. for a mask that never draws one element)", "anchors": ["src/mzed.c: mzed_randomize", "src/mzd_slice.h: mzd_slice_randomize", "src/mzd_poly.h: mzd_poly_randomize"]}
{"id": "C75", "title": "What a multiplication costs", "statement": "A product of an m x k by a k x n matrix over GF(2^e) makes the products it is documented to make, whatever the entries are. mzd_slice_mul and mzd_slice_addmul: exactly 3, 6, 9, 13, 17, 22, 27, 31, 36, 40, 45, 49, 55, 60, 64 products over GF(2) for e = 2,...,16, each m x k by k x n (the naive method: e^2, always more). mzed_mul_strassen and mzed_addmul_strassen: Newton-John products whose sizes add up to at most m k n for every cutoff; for square matrices of 2^j b rows and cutoff b exactly 7^j products of b x b matrices. mzed_mul and mzed_addmul: the documented number of products over GF(2) when all dimensions are at least 512, otherwise Newton-John products of total size at most m k n. mzd_slice_mul_blm, mzd_slice_addmul_blm, mzed_mul_blm and mzed_addmul_blm: the same number of products as Karatsuba's formulas with the default map, and exactly the cost documented for the scheme (blm_cost_crt) with a map built for a scheme. Products of polynomials of depth a and b: _mzd_poly_addmul_naive a b, _mzd_poly_addmul_karatsubs_balanced the documented number for a = b, _mzd_poly_addmul_blm one per row of the map, _mzd_poly_addmul_crt the cost of the scheme (less than a b), _mzd_poly_addmul_ext1 2 + (d-2) times the documented number for GF(2^ceil(log2 d)), where d = a+b-1.", "quantifier": "all fields, dimensions, contents, cutoffs", "why_tests_cant": "a wasted or repeated product leaves the result right, so no test of results sees it; the count must hold for all sizes and contents", "anchors": ["src/mzd_ptr.h: _mzd_ptr_addmul_karatsuba2, ..., _mzd_ptr_addmul_karatsuba16 (documented counts)", "src/karatsuba.c", "src/mzd_slice.h: mzd_slice_mul, mzd_slice_addmul", "src/mzd_slice.c: _mzd_slice_addmul_naive", "src/strassen.c: mzed_mul_strassen, mzed_addmul_strassen", "src/mzed.c: mzed_mul, mzed_addmul", "src/mzd_slice.h: mzd_slice_mul_blm, mzd_slice_addmul_blm", "src/conversion.h: mzed_mul_blm, mzed_addmul_blm", "src/blm.h: blm_cost_crt, _mzd_ptr_apply_blm", "src/mzd_poly.h: _mzd_poly_addmul_naive, _mzd_poly_addmul_karatsubs_balanced, _mzd_poly_addmul_blm, _mzd_poly_addmul_crt", "src/mzd_poly.c: _mzd_poly_addmul_ext1"]}
{"id": "C76", "title": "Creating fields and schemes and working with polynomials stays inside the memory", "statement": "gf2e_init with a minimal polynomial of degree 1 to 16 never leaves the tables it allocates, shifts by too much or fails its assertion, and all entries of its tables that exist are written, whatever the fresh memory contained. crt_init does the same (and overflows no int) if the product of the two lengths is below 2^31; otherwise it overflows. Every sequence of calls of the functions of mzd_poly.h (create, free, read and write coefficients, randomize, add with and without offset, change the depth, the three multiplications, compare) that respects the documented preconditions, and whose numbers of coefficients fit into an int, makes no access outside an array of coefficients or inside a matrix, no int overflow, no failed assertion and no call of M4RI with wrong dimensions, and returns what the mathematical operations return. The same holds for _mzd_poly_addmul_crt when the scheme is not empty and the map could be computed.", "quantifier": "all minimal polynomials, all initial contents of memory, all lengths, all programs of any length on any number of variables, with and without assertions", "why_tests_cant": "an access just outside an array, or an overflow, usually goes unnoticed and depends on what memory contains; the space of programs and sizes is infinite", "anchors": ["src/gf2e.c: gf2e_init", "src/blm.c: crt_init, blm_init_crt", "src/mzd_poly.h: all functions", "src/mzd_poly.c: mzd_slice_addmul_mzd, _mzd_poly_addmul_ext1", "src/mzd_ptr.h: _mzd_ptr_add"]}
{"id": "C77", "title": "What the sign of a comparison means", "statement": "mzed_cmp returns -1, 0 or 1 and is a total order on matrices over a field: 0 exactly for equal matrices, antisymmetric, transitive; matrices with fewer rows, then with fewer columns, come first; otherwise the first row in which the matrices differ decides, and in it the last element that differs, elements being compared as numbers. So packed matrices can be sorted and searched with it. mzd_slice_cmp and mzd_poly_cmp return -1, 0 or 1, and 0 only for equal operands, but are no orders: sliced matrices over different fields compare as -1 both ways, and the functions return -1 as soon as one slice (or coefficient) is less, so that over every field and for all dimensions there are two matrices each of which compares as less than the other, and mzed_cmp and mzd_slice_cmp disagree on the same matrices. mzd_poly_cmp puts polynomials with fewer coefficients first.", "quantifier": "all fields, all dimensions, all contents of the matrices including the excess bits, all numbers of coefficients", "why_tests_cant": "antisymmetry and transitivity range over all pairs and triples of matrices of all sizes", "anchors": ["src/mzed.h: mzed_cmp", "src/mzd_slice.h: mzd_slice_cmp", "src/mzd_poly.h: mzd_poly_cmp"]}
{"id": "C78", "title": "How much memory a multiplication takes", "statement": "Besides its arguments, every multiplication gives back all the memory it takes, and at no time takes more than: mzed_mul_newton_john and mzed_addmul_newton_john exactly eight tables (2^e positions, 2^e multiples and e rows of n elements each), or nothing if A has fewer rows than the degree e of the field; mzed_mul_strassen and mzed_addmul_strassen, for every cutoff and however deep the recursion goes, at most eight tables and the larger of one matrix of the size of C and a third of B and the larger of A and C (a third of A, B and C for addmul); exactly two thirds of one of the matrices (and a third of a leaf) and exactly one matrix for square matrices of 2^j b rows and cutoff b; exactly a whole copy of C as soon as one dimension is no larger than the cutoff. mzd_slice_mul and mzd_slice_addmul take exactly one matrix over GF(2) of each of the three sizes (for e = 2 only the larger of C and A and B together), whatever the degree is. mzed_mul and mzed_addmul with all dimensions at least 512 take exactly a sliced copy of each of the three matrices and those temporaries, otherwise what the Strassen multiplication takes.", "quantifier": "all fields, all dimensions, all entries, all cutoffs the function returns for, all recursion depths", "why_tests_cant": "the recursion depth and the shapes it passes through depend on the dimensions and the cutoff; a test measures a few of them, and memory that is taken for a moment deep in the recursion is easily missed", "anchors": ["src/strassen.c: _mzed_mul_strassen, _mzed_addmul_strassen", "src/newton_john.c: njt_mzed_init, njt_mzed_free, _mzed_mul_newton_john", "src/karatsuba.c: _mzd_ptr_addmul_karatsuba2 .. _mzd_ptr_addmul_karatsuba16", "src/mzd_slice.h: _mzd_slice_addmul_karatsuba", "src/conversion.h: _mzed_addmul_karatsuba", "src/mzed.c: mzed_mul, mzed_addmul"]}
{"id": "C79", "title": "Multiplication is asymptotically fast", "statement": "For matrices of any dimensions at most N, not only powers of two times the cutoff: mzed_mul_strassen and mzed_addmul_strassen are reduced to Newton-John products whose sizes add up to at most 7 (2 cutoff + 253) N^(log_2 7), for every cutoff they return for (README: O(n^(log_2 7))). mzd_slice_mul and mzd_slice_addmul cost at most 64 times what a multiplication over GF(2) of that size costs, so the exponent over GF(2^e) is the exponent over GF(2); mzed_mul and mzed_addmul cost at most (512 a + 64 b) N^w if M4RI multiplies in time b N^w, w >= 2, and a Newton-John product takes a for each product of entries.", "quantifier": "all fields, all dimensions, all entries, all cutoffs the function returns for, all N", "why_tests_cant": "it is a statement about all sizes: measured times for a few sizes say nothing about the exponent, and a recursion that handles remainders badly is slow only for sizes nobody measured", "anchors": ["README.md", "src/strassen.c: _mzed_mul_strassen, _mzed_addmul_strassen", "src/karatsuba.c", "src/mzed.c: mzed_mul, mzed_addmul"]}
{"id": "C80", "title": "How many products of field elements the Newton-John algorithms make", "statement": "README: row echelon forms and inverses with Newton-John tables use only O(n^2) field multiplications and O(n^3) field additions. For an m x n matrix of rank r over GF(2^e): mzed_ple_newton_john makes at most r e n products and r (e + 2^e + m) n sums; mzed_trsm_lower_left_newton_john and mzed_trsm_upper_left_newton_john with an m x n right hand side at most m 2^e n products and m (e + 2^e + m) n sums; mzed_mul_newton_john and mzed_addmul_newton_john for m x k times k x n at most (e-1) k n products for every block of rows, one block below M4RI's block size; mzed_echelonize_newton_john with one table at most e n^2 products and (e + 2^e + m) n^2 sums, with K tables at most n K ((m+1)(K-1) n + e n) products, and mzed_invert_newton_john that of an m x 2n matrix. The promise fails for mzed_echelonize_newton_john with two or more tables (always so once m4ri_opt_k returns 7): some N x N matrices take more than N^3/8 products.", "quantifier": "all fields, all dimensions, all entries, all table counts", "why_tests_cant": "it is a statement about all sizes and all entries: the matrices for which the elimination is cubic have no two consecutive pivot columns, and random ones never do that", "anchors": ["README.md", "src/newton_john.c: mzed_echelonize_newton_john, _mzed_gauss_submatrix_full, mzed_ple_newton_john, _mzed_mul_newton_john, mzed_make_table", "src/trsm.c"]}
{"id": "C81", "title": "Solving triangular systems is asymptotically fast", "statement": "mzed_trsm_lower_left, mzed_trsm_upper_left and their sliced versions, for every cutoff of at least 64, reduce a system with an n x m right hand side to multiplications (addmul) and smaller systems solved directly, with the right result and: all of them together are no larger than the system (n n m); a system is solved directly only if one of its dimensions is not above the cutoff; for n = 2^j b, b the cutoff, there are exactly 2^j direct systems b x m and 2^(j-1-i) multiplications of 2^i b x 2^i b by 2^i b x m for each i < j; for arbitrary dimensions at most N, and a cutoff of at least 128, if multiplying matrices of which two dimensions (the inner one among them) are at most X and the third at most L >= X takes time b L X^(w-1), 2 < w <= 3, and solving directly is cubic, it takes at most 16 b/(2^(w-1)-2) N^w + (a cutoff + 129032 b) N^2 (README: asymptotically fast).", "quantifier": "all fields, all dimensions, all entries, all cutoffs of at least 64, all cost functions", "why_tests_cant": "it is a statement about all sizes: a split that is unbalanced for some dimensions, or a recursion that ends too late, costs time only for sizes nobody measures, and never changes a result", "anchors": ["README.md", "src/trsm.inl: _matrix_trsm_lower_left, _matrix_trsm_upper_left", "src/trsm.c", "src/trsm.h: MZED_TRSM_CUTOFF"]}
{"id": "C82", "title": "Elimination by PLE decomposition is asymptotically fast", "statement": "_mzd_slice_ple, _mzed_ple, _mzd_slice_pluq and the echelon forms by PLE (mzd_slice_echelonize_ple, mzed_echelonize_ple, full or not, and mzed_echelonize, which leaves only matrices with fewer rows than the degree of the field or of medium size to a direct method) reduce an m x n matrix of any rank to multiplications (addmul), triangular systems solved directly and matrices decomposed directly, with the right result and: all of them together are no larger than decomposing directly (m n n; three times that for the reduced echelon form); a matrix is decomposed directly only if it has at most 64 columns or w m n is not above the cutoff; a system is solved directly only if one of its dimensions is at most 512; if multiplication has exponent w, 2 < w <= 3 (as in C81, with constant b), direct methods are cubic (constant a) and the cutoff admits at most c entries, then a matrix with dimensions at most N takes at most 4 b (14 + t)/(t-2)^2 N^w + (a (1088 + c) + 258064 b) N^2 for t = 2^(w-1), plus what C81 gives for two systems for the reduced echelon form (README: asymptotically fast row echelon form computation via PLE decomposition).", "quantifier": "all fields, all dimensions, all entries and ranks, all cutoffs, all cost functions", "why_tests_cant": "it is a statement about all sizes and ranks: a split that is unbalanced, or a base case that is taken too often, costs time only for sizes nobody measures, and never changes a result", "anchors": ["README.md", "src/ple.c: _mzd_slice_ple, _mzed_ple, _mzd_slice_pluq", "src/echelonform.c: mzd_slice_echelonize_ple", "src/echelonform.h: mzed_echelonize_ple", "src/echelonform.c: mzed_echelonize"]}
{"id": "C83", "title": "Memory of solving, decomposing and eliminating", "statement": "In words of 64 bits, with w bits for an element of GF(2^e) in a packed matrix, and everything released in the end: _mzd_slice_trsm_{lower,upper}_left take at most a packed copy of B and the larger of a packed copy of the triangular matrix and a Newton-John table, however deep the recursion goes (exactly a copy of B and, up to 2^e rows, of the triangular matrix, for more rows a table, without recursion); mzed_trsm_*_newton_john one table, or nothing up to 2^e rows; _mzed_trsm_{lower,upper}_left, however deep the recursion goes, at most the larger of e + 1 matrices over GF(2) for each of B and the triangular matrix (Karatsuba) and a packed copy of B, or a third of B and the triangular matrix together, with eight tables (Strassen), and what mzed_trsm_*_newton_john takes without recursion; mzed_ple_newton_john one table; _mzd_slice_ple and _mzd_slice_pluq at most a packed copy of the matrix and one table (exactly that without recursion); _mzed_ple the slices of the matrix besides, or one table for a narrow or small matrix; mzed_echelonize_newton_john six tables, whatever k; mzd_slice_echelonize_ple two permutations besides what the decomposition takes, and m (w + e) words for the reduced form; mzed_echelonize_ple exactly the slices of the matrix more than mzd_slice_echelonize_ple, as echelonform.h says; mzed_echelonize 0, six tables or this; mzed_invert_newton_john the identity, the matrix beside the identity and six tables of twice the width. The other half of the note in echelonform.h (\"it uses more memory than using mzed_echelonize_newton_john()\") is false for every matrix with at most 2^e rows and a multiple of 64 columns.", "quantifier": "all fields, all dimensions, all entries and ranks, all cutoffs", "why_tests_cant": "the peak depends on dimensions, ranks and the depth of the recursion; a block released too late or once per level of the recursion shows only when memory runs out", "anchors": ["src/echelonform.h: mzed_echelonize_ple", "src/echelonform.c: mzd_slice_echelonize_ple, mzed_echelonize", "src/ple.c: _mzd_slice_ple, _mzed_ple, _mzd_slice_pluq", "src/trsm.c, src/trsm.inl: _mzd_slice_trsm_lower_left, _mzd_slice_trsm_upper_left", "src/newton_john.c: mzed_echelonize_newton_john, mzed_ple_newton_john, mzed_trsm_lower_left_newton_john, mzed_trsm_upper_left_newton_john, mzed_invert_newton_john", "src/mzed_intro.inl, src/trsm.inl: _mzed_trsm_lower_left, _mzed_trsm_upper_left"]}
{"id": "C84", "title": "Adding rows of several matrices to a row", "statement": "mzed_combine4 and mzed_combine8 add to each of the ncols entries of row rc of C the entries of the given rows of the given matrices, and change no other row; if those rows have no entries beyond the columns of C, nothing beyond the columns of C changes either. The same call of mzed_combine4 once more restores C.", "quantifier": "all fields, all dimensions, all entries, all rows", "why_tests_cant": "the functions are static, mzed_combine4 is never called; whole words are added, so the last word is covered for any number of columns only by an argument", "anchors": ["src/newton_john.c: mzed_combine4, mzed_combine8"]}
