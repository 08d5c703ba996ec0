# Formal model of malb/m4rie in Lean 4

Source modelled: `/repo/src` (C). Line references in the Lean files are to that directory. The C code was not
compiled or run; the link between C and Lean is the reading recorded in the comment of every model definition
(`tools/check_cites.py` checks mechanically that every cited line range contains the cited function name).

## 1. Structure of the development (`lean/Verif`)

### Model (the program)

| module | C source | what is modelled |
|---|---|---|
| `Gf2x`, `Gf2e` | gf2x.h, gf2e.h, gf2e.c | words as `BitVec 64`; shift/mask code verbatim; `gf2e_init` tables; table reads are `Option` (`none` = read outside an initialised table, i.e. undefined behaviour); `gf2e_t16_init` |
| `IrredTables` | gf2e.c:45-84, 90 ff | the published tables, generated from the source text by script |
| `M4ri` | (M4RI) | contracts for the external GF(2) library, see section 4 |
| `Mzed`, `MzedMat` | mzed.h, mzed.c | packed matrices: rows of 64-bit words, `w`-bit lanes; element access, row operations, the per-width unrolled lane code (`LaneTables`, generated), add, scalar multiplication, copy/concat/stack/submatrix/window, cmp, is_zero, randomize, set_ui |
| `Echelon`, `NewtonJohn`, `NjEchelon` | mzed.c, newton_john.{c,h} | Gauss elimination, Newton-John tables, multiplication, elimination with up to 6 tables, inversion |
| `Strassen` | strassen.{c,h}, mzed.c | the schedules of products with their temporaries and windows, recursion, cutoff computation, `mzed_mul`/`mzed_addmul` dispatch |
| `Trsm`, `TrsmRec` | trsm.{c,h} | naive, Newton-John and recursive triangular solving, packed and sliced |
| `Ple`, `Perm`, `PleRec` | ple.{c,h}, permutation.h, echelonform.{c,h} | naive, Newton-John and recursive PLE, PLUQ, echelon forms through PLE, permutations |
| `Conv`, `ConvTables` | conversion*.{c,h} | `mzed_slice`/`mzed_cling`: the mask/shift networks word for word (tables generated) |
| `SliceOps`, `KaraTables` | mzd_slice.{c,h}, mzd_ptr.h | sliced matrices; element access, add, scalar multiplication, modular reduction while adding, Karatsuba formulas of degree 2..16 (generated) |
| `Blm`, `BlmTables` | blm.{c,h}, gf2e.c tables | CRT schemes, bilinear maps, `_blm_finish_polymult`, application by matrices and by compiled straight line programs |
| `MzdPoly` | mzd_poly.{c,h} | polynomials with matrix coefficients; naive/Karatsuba/blm/crt/ext1 multiplication, add, adapt_depth, cmp |
| `Entry` | ple.h, trsm.h, mzd_slice.h, ... | the public wrappers, depth changes, randomization |
| `View` | mzed.h, mzd_slice.h windows | programs with views into matrices |
| `Print` | mzed.c, mzd_slice.c print | the printed text |
| `Heap` | all files with `_init`/`_free` calls | which objects every routine creates, releases, uses, keeps and returns, as programs of a small nondeterministic language (tests on data become choices, loops run any number of times) |
| `Blocks` | `gf2e.c`, `mzed.c/h`, `mzd_slice.h`, `newton_john.c`, `mzd_poly.h`, `blm.c`, `mzd_poly.c` | the constructors and destructors, `_adapt_depth` and the arrays of temporaries, cell by cell, over an arbitrary allocator; M4RI objects are opaque blocks; contents that are not pointers are reduced to what bounds depend on |
| `Checked`, `CheckedConv` | gf2x.h, gf2e.h, mzed.{c,h}, newton_john.{c,h}, trsm.c, ple.c, conversion*.{c,h} | the same functions once more in a *checked* semantics: every word access is compared with the rows and the width, every shift count with 64, every index computation with `int`, every table index with the table, every assertion is evaluated (parameter `dbg`) |
| `CheckedRec`, `CheckedSlice`, `CheckedPle` | strassen.c, mzed.c, karatsuba.{c,h}, mzd_slice.h, trsm.c, trsm.inl, ple.c, echelonform.c | the recursive algorithms in the checked semantics: every window is compared with its parent, every M4RI call with the dimensions of its operands, every permutation index with its length |
| `CheckedApi`, `CheckedBlm`, `CheckedProg` | mzed.{c,h}, mzd_slice.{c,h}, mzd_ptr.h, permutation.h, blm.{c,h}, conversion.h, newton_john.c | the remaining API functions and the application of bilinear maps in the checked semantics, and whole programs calling them |
| `CheckedPoly` | gf2e.c, blm.c, mzd_poly.{h,c}, mzd_ptr.h | creation of fields and CRT schemes and everything on matrices of polynomials in the checked semantics, and programs on polynomials |
| `ViewPrograms` | mzed.h, mzd_slice.h | programs mixing windows with all other calls, plain and checked |
| `Words` | mzed.{c,h}, trsm.c, m4ri_functions.h | element, row, product, triangular and elimination functions as sequences of single word accesses |
| `Cost`, `CostPoly` | karatsuba.c, mzd_slice.{c,h}, strassen.c, mzed.c, conversion.h, blm.{c,h}, mzd_poly.{c,h} | the multiplications again, with a log of the products they make |
| `Space` | strassen.c, newton_john.c, karatsuba.c, mzd_slice.{c,h}, conversion.{c,h}, mzed.c | the multiplications again, with a trace of the memory they allocate and release |
| `Ops` | newton_john.{c,h}, trsm.c, ple, mzed.{c,h} | the Newton-John algorithms again, with the products and sums of field elements counted |
| `CostTrsm` | trsm.inl, trsm.c, mzed_intro.inl, mzd_slice_intro.inl | the operations the template is instantiated with, on matrices that carry a log of calls; the recursion itself is that of `TrsmRec` |
| `CostPle` | ple.c, echelonform.{c,h} | recursive PLE, PLUQ and elimination by PLE (as in `PleRec`) with a log of the calls they make, the logs of their triangular systems included; M4RI's `_mzd_compress_l`, permuting and copying are not logged |
| `SpaceElim` | trsm.c, ple.c, echelonform.{c,h}, newton_john.c | triangular solving of slices (the template of `TrsmRec` with other operations), PLE, PLUQ, elimination and inversion with a trace of allocations; the permutations are their arrays (32 bits an entry); headers, row pointers and what M4RI allocates inside a call are left out, as in `Space` |
| `SpaceTrsm` | trsm.inl, mzed_intro.inl, trsm.c | the packed instance of the template with a trace of allocations, as in `SpaceElim` |
| `Combine` | newton_john.c | `mzed_combine4` (never called); M4RI's `_mzd_combine_4` by contract |
| `Compare` | mzed.h, mzd_slice.h | comparisons with their sign, M4RI's `mzd_cmp` word by word |
| `History` | (the caller) | sequences of API calls on a pool of matrices; the only module without a counterpart in the repository |

Functions whose name ends in `?` return `Option`: `none` means the C function calls `m4ri_die`, fails an assertion, or leaves
the defined behaviour (out-of-range table or window, null pointer). Functions that may not terminate take fuel and the
theorems say for which fuel a result exists, or that none exists.

### Spec (what the theorems talk about; Mathlib only)

* `Poly`: `toPoly : BitVec 64 -> Polynomial (ZMod 2)`. `Rep`: `IsField ff` ("`ff` is what `gf2e_init` returns for an irreducible polynomial of degree 2..16"),
  `Elem ff` (words below `2^e`, with a Mathlib `Field` instance whose `*` and inverse *are* the modelled `gf2e_mul`, `gf2e_inv`),
  `Rep A M` ("lane `(i,j)` of the memory of `A` is the element `M i j`", for all `i j`, padding included), `SRep` for sliced matrices.
* `LinAlg`: `rank`, `rowSpan` (`Submodule.span`), `IsEchelon`, `IsRref`, `SolvesLower`, `SolvesUpper`. `Ple`: what a PLE/PLUQ decomposition is.
* `Packed`, `Slice`, `Gf2`, `Blm`, `PolyMat`: entries of packed words, bits of slices, GF(2) matrices, bilinear maps, matrices over `GF(2)[x]`.
* `Heap`: the language of object programs with its executions, what a fault is, `Safe`, `Session`; `HeapApi`: for each routine the ways to call it and what it promises then.
* `Blocks`: memory as blocks of cells with `malloc`/`calloc`/`free`/load/store and their faults, what blocks an object consists of (`FieldAt`, `MzedAt`, ..), `Makes`, `Changes`, the rules of a program (`Legal`).
* `Cost`: logs of products, the documented numbers, `Logs`. `Threads`, `Words`: programs of single word accesses and their interleavings.
* `Space`: traces of allocations and releases, the memory in use and its peak, sizes of matrices and tables, `Traces`.
* `Ops`: computations with the number of products and sums of field elements they make, `Costs`.
* `CostTrsm`: the calls the block recursions make (multiplications, systems solved directly, matrices decomposed directly), what they cost together, what it means that multiplication is fast (`FastMul`).
* `Compare`: the order on matrices given by first row, then last column.
* `View`, `Text`: windows as rectangles of matrices; a reader of printed matrices.
* `History`: operations on Mathlib matrices (`*`, `+`, inverse, `rank`, ...), which calls are allowed, what they return.

`Proofs/*` holds the lemmas, `Props/*` the theorems `Cxx_*` named in MANIFEST.json, each followed by an `example` whose
hypotheses are met by concrete data (usually over the AES field, degree 8).

## 2. Per property: what is proved and how

* **C01-C03** `toPoly` of the word functions is the `Polynomial (ZMod 2)` operation; induction over the shift/division loop.
* **C04** extended Euclid: loop invariant `a = x*a0 mod f`, degree bound for the truncated product; termination by degree.
* **C05-C08** table-building loops as folds; uniqueness of the multiple of `f` with given high bits; `Field` instance and isomorphism with `AdjoinRoot f`.
* **C09** irreducibility of every table entry by a Ben-Or certificate proved sound and evaluated in the kernel (the domain is the entire finite table); `C09_nodup_count` fixes number and distinctness.
* **C10, C49** case analysis over the finite set of degrees, all other parameters arbitrary.
* **C11, C18, C48** exact characterizations: the documented claim is false; theorems say precisely when a result exists and that every result is right.
* **C12-C17, C19, C42-C45** bit-level lemmas on packed words; the unrolled code per width is proved to perform each lane exactly once (`Proofs/Lane*`).
* **C20-C22, C25** sums over `Finset.range`; Gray-code contract and table invariant; dispatch by case analysis.
* **C23, C24, C50** block identities over a ring for the schedules with shared temporaries, then induction over the recursion; window splitting at multiples of 64 bits.
* **C26** each mask/shift network is a bit permutation (symbolic execution on bit positions, then lifted to all words).
* **C27, C28** the generated Karatsuba formulas are checked symbolically (kernel evaluation over monomials, i.e. for *all* operands) and lifted to matrices by bilinearity.
* **C29, C30** induction over rows / over the recursive split; uniqueness of the solution gives word-for-word equality with the naive solver.
* **C31-C33** loop invariants for the naive and Newton-John PLE; the recursive one by induction over the recursion, merging of `P`, `Q` and compression of `L`.
* **C34-C37, C53** row space preserved by every elementary step, shape invariant of the pivots, uniqueness of the reduced echelon form.
* **C38** permutations as swap sequences.
* **C39, C55, C56** coefficients as functions; evaluation/interpolation with a Vandermonde matrix over an extension field.
* **C40, C41, C54** certificate for bilinear maps (Fa . Gb interpolated through H), CRT in `Polynomial (ZMod 2)`, termination of `_blm_finish_polymult` iff the pairs span.
* **C46, C47, C51, C52, C57** bitwise statements about slices.
* **C58** forward simulation: every allowed call preserves "the pool stores the abstract state" and changes nothing outside the rectangle of the matrix it writes to (`Frames`); induction over the program. `C58_deterministic` gives the exact outputs.
* **C59** state = owned matrices + window rectangles; a window variable is resolved to its root, the call works on the words behind it and they are pasted back. Simulation uses C43/C52 (window read/write) and the frame clause of C58; induction over the program. Operands must not overlap the destination because functions are modelled on values; `C59_disjoint_words` shows that then no machine word is shared, so the value model is faithful.
* **C60** `printf` by contract (`%{w}x`); the specification is a reader (state machine over characters); induction over columns and rows.

* **C61** an abstract interpreter (`Proofs/Heap`) computes for a routine and a way to call it the set of objects it owns at each point; it is proved sound for *all* executions (`Proofs/HeapSound`: invariant relating abstract state and heap, induction over executions, with recursion handled by assuming the announced promises of callees); it is evaluated in the kernel on the finitely many routines (`Proofs/HeapTable`), the executions themselves are unbounded. Leaks: witnesses by a verified interpreter (`Proofs/HeapRun`), and `C61_violation_finish_always` for all executions.
* **C62** a postcondition calculus for the memory monad (`Proofs/Blocks`), loop invariants that list the blocks owned so far, one theorem per constructor (`BlocksInit`, `BlocksField`: the indices written in `red` stay below `2^e` because of C05's reduction lemma), per destructor (`BlocksFree`), per change of depth and array (`BlocksDepth`); then an invariant over histories: the footprints of the objects are disjoint and account for all memory (`BlocksSession`).
* **C63** `Chk.f args = some (f args)` for every function `f` of the checked model, by the same inductions as for the total model with an invariant that only records shape, field and that all entries are elements (`Dm`); so the arithmetic theorems about `f` hold for the checked program. The exceptions are proved as `C63_violation_*`.
* **C64** the same method (`Eqv`: same outcome as the total model, and the result satisfies the invariant); induction over the recursion; each window is shown to lie inside its parent and to start at a word boundary.
* **C65** forward simulation as for C58, with permutation variables (`APerm.toPerm` is Mathlib's product of transpositions) and a specification that says which algorithms are offered for which call (`Offered`); a decomposition may return any `IsPLE`/`IsPLUQ` result, so safety quantifies over all of them. `C65_same_words`: uniqueness of the specified result plus the frame clause give equality of the memory. `C65_solve`: composition of the steps plus `L U` algebra on Mathlib matrices.
* **C66** the checked semantics of C63/C64 extended to all calls of C65 (`Model/CheckedApi`, `CheckedBlm`, `CheckedProg`): for a permitted call on variables that store the abstract state the checked program returns what the total one returns (`C66_agree`, case analysis over the calls, each by the equality theorem of its function); with C65_step this gives a simulation, and induction over the program. Extra invariants: every matrix has a column and its rows have fewer than 2^31 bits (`Sized`; `PSafeFit` asks it of every state the program can reach), and every permutation swaps upwards (`Ascending`, M4RI's `mzd_apply_p_*` asserts it; proved to be preserved because decompositions return such permutations).
* **C67** C59's resolution of windows around the calls of C65: `C65_step` gives the frame clause (`Frames`) that `VStores.put_of` needs to paste the destination back; `C66_agree` gives the checked version because it only needs the objects the variables show; induction over the program. `C67_untouched` and `C67_decompose_window` are read off the specification of `put`.
* **C68** a second model of the functions with an output argument (`Model/Output`) in which matrices are objects of a store and every step reads its operands from the current store; each call is shown to do what the value model does (loop invariants: the words already overwritten are not read again), so the arithmetic theorems apply. Violations by evaluating the function on a small matrix in the kernel.
* **C69** `Spec/Schedule`: what a call reads and writes, an interleaving as a list of calls tagged with threads, race freedom, what each thread computes alone. Locality of `pcall` (results and written variables depend only on the variables a call names; others are unchanged), then induction: two calls of different threads commute, so every interleaving equals the threads run alone. For threads writing to disjoint windows of one matrix (`ScheduleWin`): the specification of a call is local, cutting and pasting disjoint rectangles commute, hence neighbouring calls of different threads can be swapped in any specified run; C67 connects the runs to the code. Atomicity of calls is assumed.
* **C70** from C17/C18/C25/C26/C28/C37/C43: both sides are determined by shape and elements (`rep_ext`, `srep_ext`), which are equal by the field laws of `Elem ff` and sums over `Finset.range`.
* **C71** the same for sliced matrices (`Model/OutputSlice`): the store holds sliced matrices, every access to a slice reads the current store. Functions that treat the slices one by one are shown to use slice k only in step k; products with a separate output are shown equal to the value model; in-place products by a zero invariant (mul) or by running the steps on a 1 x 1 matrix over GF(4) (addmul).
* **C72** histories of mzd_poly calls (`Model/PolyHistory`): numbered variables hold polynomial objects, the specification (`Spec/PolyHistory`) has Mathlib matrices over `(ZMod 2)[X]` with the number of coefficients in use and the capacity. Every allowed call is simulated (using C39, C55, C56); programs by induction. The addition is modelled as the sequence of `mzd_add` calls of `_mzd_ptr_add` on the current state - downwards up to 32 coefficients, upwards above - so that in-place calls are decided, not assumed.
* **C73** the word-level version of C69 (`Spec/Threads`, `Model/Words`, `Spec/Words`): a call is a program of single word reads and writes (a resumption: `done`, `read l k`, `write l v k`) in the order of the C code; threads are interleaved between any two accesses. (1) Run alone, the program of a call does what the functional model of the call does - so C20, C21, C11 etc. hold for it; (2) whatever values it reads, it touches only the words listed in `WCall.uses` and writes only `WCall.writes`; (3) by induction on the schedule, programs whose footprints do not conflict behave in every interleaving as alone and cannot be held up. `C73_parallel_mul` puts everything together for a product distributed by rows. The lost update of two neighbouring elements is proved by exhibiting the schedule. Threads may be adaptive: `WProg` is a tree of calls whose branches depend on the results.
* **C74** uniformity of randomisation (`Props/Random`): the uniform distribution (`PMF.uniformOfFintype`) on the values of the source of randomness is mapped to the distribution of what the caller reads back; by C42_randomize the entry is the drawn value mod 2^e, `[0,2^31)` is in bijection with GF(2^e) x `[0,2^(31-e))`, and the first component of a uniform pair is uniform.
* **C75** counts of products (`Spec/Cost`, `Model/Cost`): copies of karatsuba.c, the naive sliced product, strassen.c and the dispatch of `mzed_mul` that also append one entry per product to a log (a state monad over `Option`). `Logs x o l` says that `x` computes exactly what the model without log computes and appends exactly `l`; it is compositional, so the logs follow by walking through the code, the one of Strassen-Winograd by induction over the recursion. `documentedProducts` is the list of numbers in the comments of mzd_ptr.h:128-229. The bound `m k n` for all cutoffs is an induction with 7 x (half sizes) + remainders <= whole. `Model/CostPoly` does the same for blm.c and mzd_poly.[hc]; the number of rows of a map comes from C40 and C54 (`schemeProducts` in Spec/Cost is the documented cost of a scheme). Not counted: additions, and what M4RI and `_mzed_mul_newton_john` do inside one product.
* **C76** the checked semantics for gf2e_init, crt_init, blm_init_crt and mzd_poly.{h,c} (`Model/CheckedPoly`): each checked routine is proved to give what the total one gives on its domain (`Proofs/CheckedField`, `Proofs/CheckedPoly`). For `gf2e_init` the result may differ from the total model only in entries that lie behind the tables, for arbitrary initial contents of memory. For programs the hypotheses are those of C72 plus `PolyOpFits` (`Spec/PolyFit`: numbers of coefficients fit into an `int`); `C72_call` then gives the value.
* **C77** signs of comparisons (`Spec/Compare`, `Model/Compare`): `mzd_cmp` is modelled word by word from the last (masked) word of each row to the first; `Proofs/Compare` shows that this decides by the last differing bit of the first differing row, and from there by the last differing element as numbers, because the elements of a row are lanes in increasing position. `IsComparison` (Props) says -1/0/1, antisymmetric and transitive. For slices and polynomials the exact meaning of the or of the signs is proved, and the pairs that compare as less both ways are constructed for all fields and dimensions.

Every property is proved in the form stated in properties.jsonl; no theorem has the suffix `_partial`.
* **C78** memory of multiplications (`Spec/Space`, `Model/Space`): as for C75, copies of the multiplications that append an entry to a trace for every matrix and table created or released, `Traces x o l` saying that `x` computes what the model without trace computes and appends exactly `l`. `peak` is the maximum over all prefixes (C78_peak proves that reading of the recursive definition). The peak of one level of Strassen-Winograd is the temporaries of the level plus the peak of the recursive calls (`mulNode_size`, `addmulNode_size`); the bounds are inductions with 4 x (words of half sizes) <= words, which holds because the halves are rounded to whole words. Not counted: headers, arrays of row pointers, padding of rows, and what M4RI's functions allocate themselves.
* **C79** asymptotic cost (`Proofs/Asymptotic`): the log of C75 satisfies T(N) ≤ 7 T(N/2) + 189 N² (fewer than 64 rows and columns are left over by the rounding to whole words, and a leaf has one dimension of at most twice the cutoff), solved by induction on the depth for T(N) + 252·4^j ≤ (2 cutoff + 253)·7^j, N ≤ 2^j, then stated with Mathlib's real powers. The cost of M4RI's products over GF(2) and of a Newton-John product is a hypothesis (`cost`); additions and conversions, O(N²) per level, are not counted.
* **C80** products of field elements (`Spec/Ops`, `Model/Ops`): copies of the Newton-John algorithms in a counting monad: an entry multiplied by a row function is one product, an entry changed by adding a row one sum (from the first changed column on; whole words for the table functions). `Costs x v a b` says that `x` computes what the model without counters computes with at most `a` products and `b` sums. Upper bounds for PLE (products: rank·e·n), triangular solving (m·2^e·n; the table does not pay before m > 2^e), multiplication ((e−1)kn per block of rows) and elimination. For the elimination with more than one table the README's bound is refuted by an explicit family (`Proofs/OpsLower`: `a` at the even columns up to twice the row number), followed through the loop exactly: two passes for each pivot, the second without any, m²(m+1) products for 2m × 2m.
* **C81** asymptotic cost of triangular solving (`Spec/CostTrsm`, `Model/CostTrsm`): the template's model is run, unchanged, on matrices paired with a log; `TrsmLogs` relates the two instances and `trsmLowerF_logs`/`trsmUpperF_logs` follow the log through the recursion. `FastCalls` is what is claimed about the log: total size, direct solving only below the cutoff, the exact calls for powers of two times the cutoff, and for arbitrary dimensions the bound O(N^ω) (n ≤ 127 + 2^j is kept by the split at a multiple of 64, so that level i has 2^(j-1-i) multiplications of at most 127 + 2^i). The cost of a rectangular multiplication is a hypothesis (`FastMul`), satisfied by the schoolbook method; C79 gives it for square ones.
* **C82** asymptotic cost of elimination by PLE (`Model/CostPle`, `Proofs/CostPle`): copies of the recursion with a log, the logs of the triangular systems (C81) nested in it. `mzdSlicePleFL_logs` relates log and result; the log depends on the ranks of the parts, which the correctness proof of C33 bounds, so `PleCalls` describes the logs as an inductive predicate. Induction on it gives the total size and, since n ≤ 64·2^j is kept by the split, T ≤ a(64+c)N n + Σ_{i<j} 2^(j-1-i) (one Schur complement of size 64·2^i), a geometric sum for 2 < ω. For `mzed_echelonize` the premise that matrices of medium size have at most c entries excludes the overflow of section 3 (a product of 2^31 and more makes the library eliminate huge matrices directly).
* **C83** memory of solving, decomposing and eliminating (`Model/SpaceElim`, `Proofs/SpaceElim`): the traces of C78 for the remaining algorithms. The peak of a recursion is the maximum over its parts, because every part releases what it takes: `Gives x o p` (result `o`, everything released, peak at most `p`) is closed under sequence, and the bounds of the parts are monotone in the dimensions; for the Schur complement three temporaries of Karatsuba fit into the packed copy because the parts begin at multiples of 64 columns. The packed instance of the template (`Model/SpaceTrsm`, `Proofs/SpaceTrsm`) takes the maximum over its multiplications and leaves; whether they are by Karatsuba or Strassen depends on the dimensions at each level, so the bound is the larger of both. The note of echelonform.h is proved in one half (C83_note_slice) and refuted in the other (C83_violation).
* **C84** adding rows (`Model/Combine`): the lemma behind the Newton-John multiplication, for both functions; `AddedToRow` in Props/Combine says what is to be shown.

## 3. Disagreements between code and documentation found (all proved as `*_violation*` unless marked "by reading")

1. `gf2e_t16_init` reads outside its tables for degrees 3,5,6,7 and 9..14 (C11_violation_*); hence `mzed_mul_scalar` on matrices with at least 2^17 entries (C18_violation).
2. `mzd_slice_rescale_row` accesses rows outside its one-row temporary for every row but the first (C48_violation).
3. `crt_init` returns the all-zero scheme when nothing beats the trivial cost, in particular for length 1 (C40_violation_length_one).
4. `_blm_finish_polymult` loops for ever when the products with v<=w do not span, e.g. for lengths (4,4) (C40_violation_hang) and whenever the scheme needs more products than there are pairs (C40_violation_hang_count). It never returns when `f_len > g_len` (C40_violation_longer_first, C40_violation_crt_longer_first), and for lengths (3,24) `crt_init` picks multiplicity 4 > 3 at infinity, so that `_crt_modred_mat` writes to column -1 (C40_violation_infinity). C40_small classifies all lengths 1..16 exactly.
5. `_mzd_ptr_apply_blm_djb` overwrites, `_mzd_ptr_apply_blm_mzd` accumulates (C41_violation); so `_mzd_poly_addmul_crt` does not add (C55_violation_crt), returns NULL for C==NULL (C55_violation_crt_null), hangs for depth 4 (C55_violation_crt_hang) and whenever the first factor is the longer one (C55_violation_crt_longer_first).
6. `_mzd_poly_addmul_ext1` for products with fewer than three coefficients (C55_violation_ext1).
7. recursive TRSM with a cutoff below 64 builds windows outside the matrix (C30_violation).
8. Strassen with tiny cutoffs, or any product with a B without columns, crashes (C23_violation, C25_violation).
9. `mzd_slice_mul_scalar(B,a,B)` zeroes B (C46_violation_alias).
10. `_mzd_poly_adapt_depth` and `_mzd_slice_adapt_depth` grow beyond the allocated pointer array (C56_violation_adapt_depth, C57_violation).
11. three leaks/losses of objects: `_crt_modred_mat` (blm.c:352-353), `_blm_finish_polymult` (blm.c:449), hence `blm_init_crt` and every multiplication that builds its own bilinear map; `_mzd_poly_addmul_crt` drops its result (C61_violation_*). With these repaired nothing leaks (C61_repaired).
12. block level (C62_violation_*): `blm_free` of a map made with `djb = 0` calls `djb_free(NULL)`; `_mzd_poly_addmul_ext1` with one evaluation point writes `c[1]` of an array of length 1; `_mzd_poly_adapt_depth` never reallocates, so any extension beyond the depth at creation writes behind the array; `_mzd_slice_adapt_depth` beyond 16 overwrites the members behind `x`.
13. `mzed_echelonize` computes `nrows*ncols*w` in `int`: signed overflow for matrices with 2^31 bits or more, e.g. 16384 x 16384 over GF(2^8) (C64_violation_echelonize_overflow). In ple.c the same product is `size_t` (because `gf2e_degree_to_w` returns `size_t`), so there a negative cutoff acts like a huge one.
14. products need an output different from the operands, which is not documented: `mzed_mul_naive(A,A,B)`, `mzed_mul_karatsuba(A,A,B)` return zero (C68_violation_mul), `mzed_addmul_naive(A,A,B)` is wrong (C68_violation_addmul), whereas `mzed_addmul_karatsuba(A,A,B)` is right. The same for sliced matrices: `mzd_slice_mul(A,A,B)`, `mzd_slice_mul_blm(A,A,B)` return zero (C71_violation_mul, C71_violation_mul_blm), `mzd_slice_addmul(A,A,B)` and `mzd_slice_addmul_scalar(A,a,A)` are wrong (C71_violation_addmul), `mzd_slice_addmul_blm(A,A,B)` is right.
15. `_mzd_poly_add(B,A,B,offset)` is right for at most 32 coefficients but wrong for more (C72_violation_add_offset): the two branches of `_mzd_ptr_add` run in opposite directions.
16. by reading: `mzd_poly_add` is documented as `+=` but overwrites; ple.h documents `e*ncols*nrows` where the code uses `w`; `_mzed_cling16` for degree >= 13 repeats its last pass for each row (harmless); the recursive PLE leaves entries of Q beyond the rank that are not the identity (allowed by the specification).
17. not a bug but undocumented: writing two different elements of one row from two threads is a race if they share a word, and an update can be lost (C73_violation_neighbours). Rows and disjoint windows never share words (C73_rows_apart, C73_windows_apart).
18. `crt_init` computes `f_len*g_len` as `int`, which overflows from 46341 x 46341 coefficients on although a scheme exists up to f_len + g_len = 130487 (C76_violation_crt_product).
19. `mzd_slice_cmp` and `mzd_poly_cmp` combine -1, 0 and 1 with `|=`: a matrix can be less than another one and greater at the same time (C77_violation_slice, C77_violation_poly), so only `!= 0` can be used, as the comment in the header says.
20. strassen.c:53 calls the copy of `C` at the leaves "only constant memory overhead": it is a whole copy of `C` as soon as one dimension is no larger than the cutoff, whatever the other dimensions are (C78_strassen_small).
21. README.md:11 promises an elimination with "only O(n^2) field multiplications". `mzed_echelonize_newton_john` with more than one table needs more than N³/8 for some N × N matrices of every even size, over every field (C80_violation, C80_no_quadratic_bound): newton_john.c:126-131 clears each row with multiples of the rows above it before it looks for a pivot there, and if the column has none, it has done so for all rows; the next pass begins at the next column. With one table, and for PLE, the promise is kept.
22. echelonform.h: "Hence, it uses more memory than using mzed_echelonize_newton_john()" (about `mzed_echelonize_ple`): for at most 2^e rows and a multiple of 64 columns it uses less, since the Newton-John elimination creates six tables of 2^e rows whatever k is (C83_violation).

## 4. Trusted base

* Lean 4.33.0 kernel; axioms `propext`, `Classical.choice`, `Quot.sound` (through Mathlib). No axioms of our own, no compiled evaluation.
* That the Lean definitions say what the C text says (by reading). Arithmetic on dimensions is in `Nat`/`Int`: overflow of `rci_t`/`int` in sizes is modelled only in the checked semantics of C63, C64, C66 and C76. Where
  it decides between algorithms: in ple.c (`size_t`) the comparison is modelled modulo 2^64; in echelonform.c (`int`) the total model takes an arbitrary decision and the checked one faults.
* Contracts for M4RI, which is not in the repository:
  * `mzd_read_bit/write_bit/xor_bits/clear_bits/read_bits`, `mzd_row_swap/col_swap/col_swap_in_rows/row_add/row_add_offset/copy_row`, `mzd_add/copy/concat/stack/submatrix/init_window/is_zero/cmp/equal/set_ui/transpose/randomize`, `mzd_mul/addmul`: their mathematical effect on the bits inside the given dimensions and nothing outside (definitions in `Model/M4ri` and at the place of use);
  * the sign of `mzd_cmp` (C77 only): rows, columns, then rows in order and in each row words from the last to the first, compared as numbers (`mzdCmp` in `Model/Compare`);
  * `m4ri_codebook[k]`: any code satisfying `Codebook.Ok` (consecutive codes differ in the bit recorded; shown satisfiable by the binary Gray code); `m4ri_opt_k`: arbitrary number;
  * `mzd_process_rows*`, `mzd_combine*` style word loops: M4RIE's own copies are modelled; `mzd_apply_p_left/right(_trans)`: swap sequences; `_mzd_compress_l`: `CompressOk`;
  * `mzd_ple`, `mzd_inv_m4ri`, `djb_compile`/`djb_apply_mzd`: `BlmEnvOk` (rank profile, inverse, straight-line program computes the matrix), shown satisfiable by `stdBlmEnv`;
  * `__M4RI_MUL_BLOCKSIZE >= 16`, `__M4RI_CPU_L2_CACHE >= 4096`, `(int)sqrt(x)` = `Nat.sqrt x`, `ceil(log2 d)` = `Nat.clog 2 d`.
* C73: memory is sequentially consistent and word accesses are atomic (C11 guarantees that the result of a race-free program is one of a sequentially consistent execution); M4RI's `mzd_set_ui(A,0)` and `mzd_row_swap` may be any sequence of accesses with the contracted effect and footprint (`WordLib.OK`, satisfied by `stdWordLib`); field tables and headers are not written after initialisation.
* Aliasing: functions are modelled on values. Where the C code is called with output equal to an input, either the theorem covers that call (add, in-place operations) or the aliasing case is modelled separately (`Model/Output`, `Model/OutputSlice`), or C58 requires distinct operands.
* Rows of matrices with zero columns own no words. C58, C59 and C65 assume M4RI's contracts for such matrices too; C66 excludes them, because M4RI's `mzd_copy`, `mzd_row_add`, `mzd_is_zero`, `mzd_cmp`, `mzd_first_zero_row` touch the last word of each row.

## 5. Not modelled

Allocation failure (M4RI's allocator ends the program), I/O other than printing, timing and cache behaviour, OpenMP (the sources contain no pragmas of their own; only M4RI uses it),
the test and benchmark programs, SSE2 variants inside M4RI.

## 6. Testing the theorems against wrong programs

`tools/seed.py` applies one edit to a definition of the model in a scratch copy and rebuilds; results are in `seeded/LOG.jsonl`.
