{
 "C11": [
  "proved",
  "C11_t16 is the exact characterization; the documented claim (all indices, all degrees) is false in the code: C11_violation_small/_large."
 ],
 "C18": [
  "proved",
  "C18_exact is the exact characterization; the documented claim (all sizes) is false for degrees 3,5,6,7 with nrows*ncols >= 2^17: C18_violation."
 ],
 "C23": [
  "proved",
  "The crash for small cutoffs is proved as C23_violation."
 ],
 "C25": [
  "proved",
  "The crash for a B without columns is proved as C25_violation."
 ],
 "C46": [
  "proved",
  "C == B destroys the input: C46_violation_alias."
 ],
 "C48": [
  "proved",
  "C48_exact is the exact characterization; the documented claim (every row) is false for every r >= 1: C48_violation."
 ],
 "C40": [
  "proved",
  "The failures of the code (length 1: zero scheme; (4,4): endless loop; f_len > g_len: never returns; (3,24): write to column -1) are proved as C40_violation_*; C40_small decides every pair of lengths up to 16."
 ],
 "C41": [
  "proved",
  "The two methods differ on a non-zero output: C41_violation."
 ],
 "C55": [
  "proved",
  "The disagreements with the documentation are proved as C55_violation_*."
 ],
 "C56": [
  "proved",
  "mzd_poly_add overwrites although documented as +=; growing beyond the allocation is proved out of bounds (C56_violation_adapt_depth)."
 ],
 "C61": [
  "proved",
  "Holds with three exceptions, proved as C61_violation_*; with them repaired it holds without exception (C61_repaired)."
 ],
 "C62": [
  "proved",
  "Holds with the exceptions proved as C62_violation_*. Objects of M4RI are single opaque blocks."
 ],
 "C63": [
  "proved",
  "Holds with the exceptions proved as C63_violation_* (and C18_exact). M4RI calls are modelled by contract; the recursive algorithms are C64."
 ],
 "C64": [
  "proved",
  "Holds with the exceptions proved as C64_violation_* (and C23/C25/C30 violations): unusable cutoffs, right-hand sides without columns, permutations shorter than the matrix, mzed_echelonize on matrices whose nrows*ncols*w does not fit an int. M4RI calls are modelled by contract."
 ],
 "C66": [
  "proved",
  "For matrices with at least one column (M4RI routines such as mzd_copy, mzd_row_add, mzd_is_zero read the last word of each row) and dimensions in bits within int. M4RI calls are modelled by contract, their preconditions are checked."
 ],
 "C67": [
  "proved",
  "Functions are modelled on values, so operands that partly overlap the destination are excluded (as in C59); C59_disjoint_words shows that disjoint windows share no machine word."
 ],
 "C68": [
  "proved",
  "Aliasing means the same matrix object; partly overlapping windows are excluded as in C59/C67."
 ],
 "C69": [
  "proved",
  "Locality of every call (it reads and writes only the variables it names), by cases over all 39 kinds of calls, then induction over the interleaving. For windows: the specification of every call is local, calls on disjoint rectangles commute (cut and paste of disjoint rectangles), so any order can be sorted into any other by swaps; C67 for the concrete run. Calls are atomic: the theorems are about interleavings of whole calls; the absence of mutable globals in /repo/src was checked by reading. Windows are not created or released while the threads run."
 ],
 "C70": [
  "proved",
  "Consequences of C17, C18, C25, C26, C28, C37, C43 and of the fact that a packed or sliced matrix is determined by its shape and elements (unused bits of a word are zero or unchanged). C70_scalar excludes the sizes for which mzed_mul_scalar dies (C18_violation)."
 ],
 "C71": [
  "proved",
  "Model/OutputSlice: store of sliced matrices; in-place calls modelled step by step."
 ],
 "C72": [
  "proved",
  "Refinement of a pool of polynomial objects to Mathlib matrices over (ZMod 2)[X], by induction on the program; _mzd_poly_addmul_crt (may not return, see C55) and products into an operand are not among the calls."
 ],
 "C73": [
  "proved",
  "Calls as resumption programs over a memory of words (Model/Words); alone they equal the functional model (C73_alone), their footprint is as listed (C73_footprint), and programs with race-free footprints are insensitive to interleaving (induction over the schedule). M4RI's mzd_set_ui and mzd_row_swap enter by contract (effect and footprint), field tables and headers count as constants. Memory is sequentially consistent, which C11 guarantees for race-free programs. Functions not among the calls (Newton-John, Strassen, sliced) are covered by C69 only, where calls are atomic. Threads are lists of calls (C73_interleave) or programs choosing the next call by the results so far (C73_adaptive); C73_any_code is the general statement for any code with a known footprint."
 ],
 "C74": [
  "proved",
  "Distributions are Mathlib's PMF. That random() and mzd_randomize (libc, M4RI) are uniform and independent is the hypothesis: the theorems map the uniform distribution on their values to the distribution of the matrix read back."
 ],
 "C75": [
  "proved",
  "The versions with a log (Model/Cost) are proved to compute the same result as the models without, so the log belongs to the modelled code. Products inside M4RI (mzd_mul's own Strassen) and inside _mzed_mul_newton_john are not counted: they are the unit."
 ],
 "C80": [
  "proved",
  "The promise of the README for the elimination with several tables is false: C80_violation, C80_no_quadratic_bound; the other theorems are the bounds that hold."
 ],
 "C83": [
  "proved",
  "One half of the note in echelonform.h is false: C83_violation."
 ]
}