/-!
Generated by tools/gen_kara.py from karatsuba.c.  One entry per statement
`_mzd_ptr_add_to_all(ff, mzd_mul(t0, mzd_sum(t1, .., a_i, ..), mzd_sum(t2, .., b_j, ..), 0), X, n, t, ..)`:
the indices `i`, `j` of the summands (in order) and the targets `t`.
-/

namespace M4rie

/-- one statement of a formula -/
structure KaraTerm where
  as : List Nat
  bs : List Nat
  targets : List Nat

/-- karatsuba.c:4-23 `_mzd_ptr_addmul_karatsuba2` (after its first statement, `X[1] += (a0+a1)*(b0+b1)`). -/
def karaTerms2 : List KaraTerm := [
  ⟨[0], [0], [0, 1]⟩,
  ⟨[1], [1], [1, 2]⟩]

/-- karatsuba.c:25-48 `_mzd_ptr_addmul_karatsuba3`. -/
def karaTerms3 : List KaraTerm := [
  ⟨[0, 1], [0, 1], [1]⟩,
  ⟨[0, 2], [0, 2], [2]⟩,
  ⟨[1, 2], [1, 2], [3]⟩,
  ⟨[0], [0], [0, 1, 2]⟩,
  ⟨[1], [1], [1, 2, 3]⟩,
  ⟨[2], [2], [2, 3, 4]⟩]

/-- karatsuba.c:50-92 `_mzd_ptr_addmul_karatsuba4`. -/
def karaTerms4 : List KaraTerm := [
  ⟨[0, 1, 2, 3], [0, 1, 2, 3], [3]⟩,
  ⟨[0, 1], [0, 1], [1, 3]⟩,
  ⟨[0, 2], [0, 2], [2, 3]⟩,
  ⟨[1, 3], [1, 3], [3, 4]⟩,
  ⟨[2, 3], [2, 3], [3, 5]⟩,
  ⟨[0], [0], [0, 1, 2, 3]⟩,
  ⟨[1], [1], [1, 2, 3, 4]⟩,
  ⟨[2], [2], [2, 3, 4, 5]⟩,
  ⟨[3], [3], [3, 4, 5, 6]⟩]

/-- karatsuba.c:94-160 `_mzd_ptr_addmul_karatsuba5`. -/
def karaTerms5 : List KaraTerm := [
  ⟨[0], [0], [6, 5, 4, 2, 1, 0]⟩,
  ⟨[1], [1], [4, 1]⟩,
  ⟨[3], [3], [7, 4]⟩,
  ⟨[4], [4], [8, 7, 6, 4, 3, 2]⟩,
  ⟨[0, 4], [0, 4], [6, 5, 3, 2]⟩,
  ⟨[0, 1], [0, 1], [5, 4, 2, 1]⟩,
  ⟨[3, 4], [3, 4], [7, 6, 4, 3]⟩,
  ⟨[1, 2, 4], [1, 2, 4], [4, 2]⟩,
  ⟨[0, 2, 3], [0, 2, 3], [6, 4]⟩,
  ⟨[0, 1, 3, 4], [0, 1, 3, 4], [5, 3]⟩,
  ⟨[0, 1, 2, 4], [0, 1, 2, 4], [5, 2]⟩,
  ⟨[0, 2, 3, 4], [0, 2, 3, 4], [6, 3]⟩,
  ⟨[0, 1, 2, 3, 4], [0, 1, 2, 3, 4], [5, 4, 3]⟩]

/-- karatsuba.c:162-233 `_mzd_ptr_addmul_karatsuba6`. -/
def karaTerms6 : List KaraTerm := [
  ⟨[0], [0], [6, 5, 1, 0]⟩,
  ⟨[1], [1], [7, 6, 5, 4, 3, 1]⟩,
  ⟨[4], [4], [9, 7, 5, 3]⟩,
  ⟨[5], [5], [10, 9, 6, 5]⟩,
  ⟨[4, 5], [4, 5], [9, 8, 4, 3]⟩,
  ⟨[0, 1], [0, 1], [7, 4, 2, 1]⟩,
  ⟨[3, 4], [3, 4], [8, 7, 6, 3]⟩,
  ⟨[1, 2], [1, 2], [7, 6, 3, 2]⟩,
  ⟨[1, 4], [1, 4], [4, 5]⟩,
  ⟨[2, 3], [2, 3], [7, 6, 4, 3]⟩,
  ⟨[3, 4, 5], [3, 4, 5], [8, 6, 4, 3]⟩,
  ⟨[0, 1, 2], [0, 1, 2], [7, 2]⟩,
  ⟨[0, 3, 5], [0, 3, 5], [7, 5]⟩,
  ⟨[0, 2, 5], [0, 2, 5], [6, 5, 4, 3]⟩,
  ⟨[0, 2, 3, 5], [0, 2, 3, 5], [7, 5, 4, 3]⟩,
  ⟨[0, 1, 3, 4], [0, 1, 3, 4], [6, 4]⟩,
  ⟨[0, 1, 2, 3, 4, 5], [0, 1, 2, 3, 4, 5], [6]⟩]

/-- karatsuba.c:235-351 `_mzd_ptr_addmul_karatsuba7`. -/
def karaTerms7 : List KaraTerm := [
  ⟨[0, 1, 2, 3, 4, 5, 6], [0, 1, 2, 3, 4, 5, 6], [7, 6, 5]⟩,
  ⟨[1, 2, 3, 5, 6], [1, 2, 3, 5, 6], [9, 6]⟩,
  ⟨[0, 1, 3, 4, 5], [0, 1, 3, 4, 5], [6, 3]⟩,
  ⟨[0, 2, 3, 4, 6], [0, 2, 3, 4, 6], [9, 3]⟩,
  ⟨[0, 2, 3, 5, 6], [0, 2, 3, 5, 6], [7, 3]⟩,
  ⟨[0, 1, 3, 4, 6], [0, 1, 3, 4, 6], [9, 5]⟩,
  ⟨[1, 2, 4, 5], [1, 2, 4, 5], [9, 7, 5, 3]⟩,
  ⟨[0, 1], [0, 1], [9, 7, 3, 1]⟩,
  ⟨[0, 2], [0, 2], [9, 6, 5, 2]⟩,
  ⟨[0, 4], [0, 4], [7, 4]⟩,
  ⟨[1, 3], [1, 3], [7, 6, 4, 3]⟩,
  ⟨[2, 6], [2, 6], [8, 5]⟩,
  ⟨[3, 5], [3, 5], [9, 8, 6, 5]⟩,
  ⟨[4, 6], [4, 6], [10, 7, 6, 3]⟩,
  ⟨[5, 6], [5, 6], [11, 9, 5, 3]⟩,
  ⟨[0], [0], [6, 5, 4, 2, 1, 0]⟩,
  ⟨[1], [1], [5, 4, 2, 1]⟩,
  ⟨[2], [2], [8, 7, 6, 4, 3, 2]⟩,
  ⟨[3], [3], [8, 7, 5, 4]⟩,
  ⟨[4], [4], [10, 9, 8, 6, 5, 4]⟩,
  ⟨[5], [5], [11, 10, 8, 7]⟩,
  ⟨[6], [6], [12, 11, 10, 8, 7, 6]⟩]

/-- karatsuba.c:353-455 `_mzd_ptr_addmul_karatsuba8`. -/
def karaTerms8 : List KaraTerm := [
  ⟨[0], [0], [0, 1, 2, 3, 4, 5, 6, 7]⟩,
  ⟨[1], [1], [1, 2, 3, 4, 5, 6, 7, 8]⟩,
  ⟨[2], [2], [2, 3, 4, 5, 6, 7, 8, 9]⟩,
  ⟨[3], [3], [3, 4, 5, 6, 7, 8, 9, 10]⟩,
  ⟨[4], [4], [4, 5, 6, 7, 8, 9, 10, 11]⟩,
  ⟨[5], [5], [5, 6, 7, 8, 9, 10, 11, 12]⟩,
  ⟨[6], [6], [6, 7, 8, 9, 10, 11, 12, 13]⟩,
  ⟨[7], [7], [7, 8, 9, 10, 11, 12, 13, 14]⟩,
  ⟨[0, 2], [0, 2], [2, 3, 6, 7]⟩,
  ⟨[2, 3], [2, 3], [3, 5, 7, 9]⟩,
  ⟨[2, 6], [2, 6], [6, 7, 8, 9]⟩,
  ⟨[4, 5], [4, 5], [5, 7, 9, 11]⟩,
  ⟨[6, 7], [6, 7], [7, 9, 11, 13]⟩,
  ⟨[0, 1, 2, 3], [0, 1, 2, 3], [3, 7]⟩,
  ⟨[5, 7], [5, 7], [7, 8, 11, 12]⟩,
  ⟨[0, 4], [0, 4], [4, 5, 6, 7]⟩,
  ⟨[1, 3], [1, 3], [3, 4, 7, 8]⟩,
  ⟨[1, 3, 5, 7], [1, 3, 5, 7], [7, 8]⟩,
  ⟨[0, 1], [0, 1], [1, 3, 5, 7]⟩,
  ⟨[4, 6], [4, 6], [6, 7, 10, 11]⟩,
  ⟨[1, 5], [1, 5], [5, 6, 7, 8]⟩,
  ⟨[0, 1, 2, 3, 4, 5, 6, 7], [0, 1, 2, 3, 4, 5, 6, 7], [7]⟩,
  ⟨[0, 2, 4, 6], [0, 2, 4, 6], [6, 7]⟩,
  ⟨[0, 1, 4, 5], [0, 1, 4, 5], [5, 7]⟩,
  ⟨[2, 3, 6, 7], [2, 3, 6, 7], [7, 9]⟩,
  ⟨[3, 7], [3, 7], [7, 8, 9, 10]⟩,
  ⟨[4, 5, 6, 7], [4, 5, 6, 7], [7, 11]⟩]

/-- karatsuba.c:457-578 `_mzd_ptr_addmul_karatsuba9`. -/
def karaTerms9 : List KaraTerm := [
  ⟨[8], [8], [2, 3, 5, 10, 12, 16]⟩,
  ⟨[0], [0], [0, 1, 3, 8, 10, 14]⟩,
  ⟨[1], [1], [1, 2, 4, 9, 11, 15]⟩,
  ⟨[0, 1], [0, 1], [1, 2, 4, 9, 11, 15]⟩,
  ⟨[0, 2, 4, 6, 8], [0, 2, 4, 6, 8], [2, 5, 6, 7, 8, 9, 12, 13, 14, 15]⟩,
  ⟨[1, 3, 5, 7], [1, 3, 5, 7], [2, 5, 6, 7, 8, 9, 12, 13, 14, 15]⟩,
  ⟨[0, 1, 2, 3, 4, 5, 6, 7, 8], [0, 1, 2, 3, 4, 5, 6, 7, 8], [2, 3, 4, 6, 8, 12, 14]⟩,
  ⟨[0, 2, 3, 5, 6, 8], [0, 2, 3, 5, 6, 8], [2, 3, 4, 5, 6, 8, 9, 10, 11, 12, 13, 15]⟩,
  ⟨[1, 2, 4, 5, 7, 8], [1, 2, 4, 5, 7, 8], [2, 4, 6, 7, 9, 11, 13, 14]⟩,
  ⟨[0, 1, 3, 4, 6, 7], [0, 1, 3, 4, 6, 7], [3, 5, 7, 8, 10, 12, 14, 15]⟩,
  ⟨[0, 3, 5, 6, 7], [0, 3, 5, 6, 7], [2, 3, 10, 12, 13, 14]⟩,
  ⟨[1, 3, 4, 5, 8], [1, 3, 4, 5, 8], [3, 4, 11, 13, 14, 15]⟩,
  ⟨[2, 4, 5, 6], [2, 4, 5, 6], [2, 3, 4, 10, 14, 15]⟩,
  ⟨[0, 1, 4, 6, 7, 8], [0, 1, 4, 6, 7, 8], [2, 4, 10, 11, 12, 15]⟩,
  ⟨[0, 2, 3, 4, 7], [0, 2, 3, 4, 7], [2, 10, 11, 13]⟩,
  ⟨[1, 2, 3, 6, 8], [1, 2, 3, 6, 8], [3, 11, 12, 14]⟩,
  ⟨[0, 3, 4, 5, 7], [0, 3, 4, 5, 7], [3, 4, 5, 6, 9, 12, 13, 14]⟩,
  ⟨[1, 4, 5, 6, 8], [1, 4, 5, 6, 8], [4, 5, 6, 7, 10, 13, 14, 15]⟩,
  ⟨[2, 3, 4, 6], [2, 3, 4, 6], [2, 3, 6, 7, 8, 10, 11, 12, 14, 15]⟩,
  ⟨[0, 1, 3, 6, 7, 8], [0, 1, 3, 6, 7, 8], [2, 6, 8, 9, 11, 14]⟩,
  ⟨[0, 2, 5, 6, 7], [0, 2, 5, 6, 7], [3, 7, 9, 10, 12, 15]⟩,
  ⟨[1, 2, 3, 5, 8], [1, 2, 3, 5, 8], [2, 3, 4, 5, 8, 11, 12, 13]⟩,
  ⟨[0, 4, 7, 8], [0, 4, 7, 8], [4, 7, 11, 14]⟩,
  ⟨[1, 4, 5, 7], [1, 4, 5, 7], [5, 8, 12, 15]⟩,
  ⟨[2, 5, 6, 8], [2, 5, 6, 8], [2, 3, 5, 6, 9, 10, 12, 13]⟩,
  ⟨[3, 6, 7], [3, 6, 7], [3, 4, 6, 7, 10, 11, 13, 14]⟩,
  ⟨[0, 1, 2, 3, 7], [0, 1, 2, 3, 7], [2, 4, 5, 7, 9, 11, 12, 14]⟩,
  ⟨[0, 1, 5, 8], [0, 1, 5, 8], [2, 8, 9, 15]⟩,
  ⟨[0, 2, 4, 5, 6, 7], [0, 2, 4, 5, 6, 7], [3, 4, 5, 6, 7, 8, 10, 11, 12, 13, 14, 15]⟩,
  ⟨[1, 3, 4, 5, 6], [1, 3, 4, 5, 6], [2, 3, 4, 6, 7, 8, 9, 10, 11, 13, 14, 15]⟩,
  ⟨[2, 3, 5, 7, 8], [2, 3, 5, 7, 8], [3, 6, 10, 13]⟩]

/-- karatsuba.c:580-718 `_mzd_ptr_addmul_karatsuba10`. -/
def karaTerms10 : List KaraTerm := [
  ⟨[9], [9], [1, 6, 8, 11, 13, 18]⟩,
  ⟨[0], [0], [0, 5, 7, 10, 12, 17]⟩,
  ⟨[0, 1, 2, 3, 4, 5, 6, 7, 8, 9], [0, 1, 2, 3, 4, 5, 6, 7, 8, 9], [1, 2, 3, 4, 5, 8, 9, 10, 13, 14, 15, 16, 17]⟩,
  ⟨[0, 2, 3, 5, 6, 8, 9], [0, 2, 3, 5, 6, 8, 9], [2, 3, 5, 6, 7, 12, 13, 14, 16, 17]⟩,
  ⟨[1, 2, 4, 5, 7, 8], [1, 2, 4, 5, 7, 8], [1, 3, 4, 7, 11, 14, 15, 17]⟩,
  ⟨[0, 1, 3, 4, 6, 7, 9], [0, 1, 3, 4, 6, 7, 9], [1, 2, 4, 5, 6, 11, 12, 13, 15, 16]⟩,
  ⟨[0, 3, 5, 6, 7], [0, 3, 5, 6, 7], [1, 3, 7, 8, 12, 13, 16, 17]⟩,
  ⟨[1, 3, 4, 5, 8], [1, 3, 4, 5, 8], [1, 2, 4, 6, 9, 11, 14, 17]⟩,
  ⟨[2, 4, 5, 6, 9], [2, 4, 5, 6, 9], [1, 2, 3, 5, 6, 7, 8, 10, 11, 12, 13, 15]⟩,
  ⟨[0, 1, 4, 6, 7, 8], [0, 1, 4, 6, 7, 8], [2, 3, 4, 6, 7, 8, 9, 11, 12, 13, 14, 16]⟩,
  ⟨[0, 2, 3, 4, 7, 9], [0, 2, 3, 4, 7, 9], [3, 4, 5, 7, 8, 9, 10, 12, 13, 14, 15, 17]⟩,
  ⟨[1, 2, 3, 6, 8, 9], [1, 2, 3, 6, 8, 9], [1, 4, 5, 9, 10, 14, 15, 16]⟩,
  ⟨[0, 3, 4, 5, 7], [0, 3, 4, 5, 7], [3, 5, 6, 7, 8, 10, 11, 12, 13, 15, 16, 17]⟩,
  ⟨[1, 4, 5, 6, 8], [1, 4, 5, 6, 8], [1, 4, 7, 9, 12, 14, 16, 17]⟩,
  ⟨[2, 3, 4, 6, 9], [2, 3, 4, 6, 9], [1, 2, 5, 6, 10, 11, 15, 17]⟩,
  ⟨[0, 1, 3, 6, 7, 8], [0, 1, 3, 6, 7, 8], [2, 3, 4, 8, 9, 13, 14, 17]⟩,
  ⟨[0, 2, 5, 6, 7, 9], [0, 2, 5, 6, 7, 9], [1, 3, 4, 5, 6, 8, 9, 10, 11, 13, 14, 15]⟩,
  ⟨[1, 2, 3, 5, 8, 9], [1, 2, 3, 5, 8, 9], [2, 4, 5, 6, 7, 9, 10, 11, 12, 14, 15, 16]⟩,
  ⟨[0, 4, 7, 8], [0, 4, 7, 8], [1, 2, 4, 8, 10, 11, 16, 17]⟩,
  ⟨[1, 4, 5, 7, 9], [1, 4, 5, 7, 9], [1, 2, 3, 5, 6, 8, 9, 12, 13, 17]⟩,
  ⟨[2, 5, 6, 8], [2, 5, 6, 8], [1, 2, 3, 4, 7, 8, 9, 10, 11, 14]⟩,
  ⟨[3, 6, 7, 9], [3, 6, 7, 9], [2, 3, 4, 5, 8, 9, 10, 11, 12, 15]⟩,
  ⟨[0, 1, 2, 3, 7], [0, 1, 2, 3, 7], [1, 5, 7, 12, 14, 15]⟩,
  ⟨[0, 1, 5, 8, 9], [0, 1, 5, 8, 9], [1, 3, 4, 6, 7, 9, 10, 11, 13, 14, 15, 16]⟩,
  ⟨[0, 2, 4, 5, 6, 7], [0, 2, 4, 5, 6, 7], [1, 4, 6, 10, 11, 13, 15, 17]⟩,
  ⟨[1, 3, 4, 5, 6], [1, 3, 4, 5, 6], [1, 2, 5, 6, 7, 8, 12, 13, 14, 16]⟩,
  ⟨[2, 3, 5, 7, 8, 9], [2, 3, 5, 7, 8, 9], [1, 3, 5, 9, 12, 15, 16, 17]⟩,
  ⟨[0, 4, 5, 6, 7, 9], [0, 4, 5, 6, 7, 9], [1, 2, 7, 8, 10, 14, 16, 17]⟩,
  ⟨[1, 5, 6, 7, 8], [1, 5, 6, 7, 8], [1, 2, 3, 6, 9, 13, 15, 17]⟩,
  ⟨[2, 6, 7, 8, 9], [2, 6, 7, 8, 9], [1, 2, 3, 4, 6, 7, 8, 10, 11, 13, 14, 16]⟩,
  ⟨[3, 4, 5, 6, 8], [3, 4, 5, 6, 8], [2, 3, 4, 5, 7, 8, 9, 11, 12, 14, 15, 17]⟩,
  ⟨[0, 1, 2, 3, 5, 7, 8], [0, 1, 2, 3, 5, 7, 8], [3, 6, 7, 8, 9, 10, 13, 14, 15, 16]⟩,
  ⟨[0, 1, 4, 8, 9], [0, 1, 4, 8, 9], [1, 3, 4, 5, 9, 10, 11, 12, 15, 16]⟩,
  ⟨[0, 2, 4, 5, 8], [0, 2, 4, 5, 8], [2, 3, 5, 10, 12, 16]⟩,
  ⟨[1, 3, 4, 7], [1, 3, 4, 7], [3, 4, 6, 11, 13, 17]⟩,
  ⟨[2, 3, 4, 5, 7, 9], [2, 3, 4, 5, 7, 9], [1, 3, 5, 7, 8, 12, 14, 17]⟩]

/-- karatsuba.c:720-871 `_mzd_ptr_addmul_karatsuba11`. -/
def karaTerms11 : List KaraTerm := [
  ⟨[10], [10], [2, 3, 7, 8, 9, 10, 12, 13, 14, 15, 19, 20]⟩,
  ⟨[0, 2, 3, 5, 6, 8, 9], [0, 2, 3, 5, 6, 8, 9], [3, 5, 6, 9, 13, 16, 17, 19]⟩,
  ⟨[1, 2, 4, 5, 7, 8, 10], [1, 2, 4, 5, 7, 8, 10], [2, 3, 4, 6, 8, 9, 12, 13, 15, 17, 18, 19]⟩,
  ⟨[0, 1, 3, 4, 6, 7, 9, 10], [0, 1, 3, 4, 6, 7, 9, 10], [2, 4, 5, 8, 12, 15, 16, 18]⟩,
  ⟨[0], [0], [0, 1, 5, 6, 7, 8, 10, 11, 12, 13, 17, 18]⟩,
  ⟨[1], [1], [1, 2, 6, 7, 8, 9, 11, 12, 13, 14, 18, 19]⟩,
  ⟨[0, 1], [0, 1], [1, 2, 6, 7, 8, 9, 11, 12, 13, 14, 18, 19]⟩,
  ⟨[0, 2, 4, 6, 8, 10], [0, 2, 4, 6, 8, 10], [2, 7, 9, 12, 14, 19]⟩,
  ⟨[1, 3, 5, 7, 9], [1, 3, 5, 7, 9], [2, 7, 9, 12, 14, 19]⟩,
  ⟨[0, 1, 2, 3, 4, 5, 6, 7, 8, 9, 10], [0, 1, 2, 3, 4, 5, 6, 7, 8, 9, 10], [3, 4, 5, 6, 7, 10, 11, 12, 15, 16, 17, 18, 19]⟩,
  ⟨[0, 3, 5, 6, 7, 10], [0, 3, 5, 6, 7, 10], [3, 6, 7, 11, 12, 16, 17, 18]⟩,
  ⟨[1, 3, 4, 5, 8, 10], [1, 3, 4, 5, 8, 10], [4, 7, 8, 12, 13, 17, 18, 19]⟩,
  ⟨[2, 4, 5, 6, 9], [2, 4, 5, 6, 9], [2, 3, 5, 7, 10, 12, 15, 18]⟩,
  ⟨[0, 1, 4, 6, 7, 8], [0, 1, 4, 6, 7, 8], [3, 4, 6, 8, 11, 13, 16, 19]⟩,
  ⟨[0, 2, 3, 4, 7, 9, 10], [0, 2, 3, 4, 7, 9, 10], [2, 3, 4, 5, 8, 10, 13, 15, 17, 19]⟩,
  ⟨[1, 2, 3, 6, 8, 9, 10], [1, 2, 3, 6, 8, 9, 10], [2, 4, 5, 6, 7, 8, 10, 11, 12, 13, 15, 16, 18, 19]⟩,
  ⟨[0, 3, 4, 5, 7, 10], [0, 3, 4, 5, 7, 10], [2, 3, 5, 6, 8, 9, 10, 11, 13, 14, 15, 16, 17, 19]⟩,
  ⟨[1, 4, 5, 6, 8], [1, 4, 5, 6, 8], [2, 4, 6, 8, 11, 13, 16, 17, 18, 19]⟩,
  ⟨[2, 3, 4, 6, 9, 10], [2, 3, 4, 6, 9, 10], [2, 5, 8, 10, 13, 15, 17, 18]⟩,
  ⟨[0, 1, 3, 6, 7, 8, 10], [0, 1, 3, 6, 7, 8, 10], [2, 3, 4, 8, 9, 13, 14, 17]⟩,
  ⟨[0, 2, 5, 6, 7, 9], [0, 2, 5, 6, 7, 9], [3, 4, 5, 9, 10, 14, 15, 18]⟩,
  ⟨[1, 2, 3, 5, 8, 9, 10], [1, 2, 3, 5, 8, 9, 10], [4, 5, 6, 10, 11, 15, 16, 19]⟩,
  ⟨[0, 4, 7, 8, 10], [0, 4, 7, 8, 10], [2, 4, 6, 10, 13, 16, 17, 18]⟩,
  ⟨[1, 4, 5, 7, 9, 10], [1, 4, 5, 7, 9, 10], [3, 5, 7, 11, 14, 17, 18, 19]⟩,
  ⟨[2, 5, 6, 8, 10], [2, 5, 6, 8, 10], [2, 3, 4, 6, 7, 9, 10, 13, 14, 18]⟩,
  ⟨[3, 6, 7, 9], [3, 6, 7, 9], [3, 4, 5, 7, 8, 10, 11, 14, 15, 19]⟩,
  ⟨[0, 1, 2, 3, 7, 10], [0, 1, 2, 3, 7, 10], [2, 5, 6, 8, 9, 11, 13, 15, 18, 19]⟩,
  ⟨[0, 1, 5, 8, 9], [0, 1, 5, 8, 9], [3, 4, 7, 8, 9, 10, 14, 15, 16, 18]⟩,
  ⟨[0, 2, 4, 5, 6, 7], [0, 2, 4, 5, 6, 7], [4, 8, 10, 15, 17, 18]⟩,
  ⟨[1, 3, 4, 5, 6, 10], [1, 3, 4, 5, 6, 10], [5, 9, 11, 16, 18, 19]⟩,
  ⟨[2, 3, 5, 7, 8, 9, 10], [2, 3, 5, 7, 8, 9, 10], [2, 3, 5, 6, 7, 8, 11, 13, 14, 15, 16, 17, 18, 19]⟩,
  ⟨[0, 4, 5, 6, 7, 9], [0, 4, 5, 6, 7, 9], [2, 6, 7, 10, 11, 13, 14, 16, 17, 18]⟩,
  ⟨[1, 5, 6, 7, 8, 10], [1, 5, 6, 7, 8, 10], [3, 7, 8, 11, 12, 14, 15, 17, 18, 19]⟩,
  ⟨[2, 6, 7, 8, 9], [2, 6, 7, 8, 9], [2, 3, 4, 7, 10, 14, 16, 18]⟩,
  ⟨[3, 4, 5, 6, 8, 10], [3, 4, 5, 6, 8, 10], [3, 4, 5, 8, 11, 15, 17, 19]⟩,
  ⟨[0, 1, 2, 3, 5, 7, 8], [0, 1, 2, 3, 5, 7, 8], [2, 3, 6, 8, 10, 12, 13, 15, 16, 19]⟩,
  ⟨[0, 1, 4, 8, 9, 10], [0, 1, 4, 8, 9, 10], [2, 3, 4, 5, 6, 7, 8, 10, 13, 14, 15, 16, 18, 19]⟩,
  ⟨[0, 2, 4, 5, 8], [0, 2, 4, 5, 8], [2, 3, 5, 10, 12, 16]⟩,
  ⟨[1, 3, 4, 7], [1, 3, 4, 7], [3, 4, 6, 11, 13, 17]⟩,
  ⟨[2, 3, 4, 5, 7, 9, 10], [2, 3, 4, 5, 7, 9, 10], [3, 5, 6, 7, 11, 12, 13, 14, 17, 18]⟩]

/-- karatsuba.c:874-1043 `_mzd_ptr_addmul_karatsuba12`. -/
def karaTerms12 : List KaraTerm := [
  ⟨[11], [11], [1, 2, 3, 4, 5, 6, 7, 16, 17, 18, 19, 20, 21, 22]⟩,
  ⟨[0], [0], [0, 1, 2, 3, 4, 5, 6, 15, 16, 17, 18, 19, 20, 21]⟩,
  ⟨[0, 1, 2, 3, 4, 5, 6, 7, 8, 9, 10, 11], [0, 1, 2, 3, 4, 5, 6, 7, 8, 9, 10, 11], [1, 3, 5, 7, 8, 9, 10, 11, 12, 13, 14, 15, 17, 19, 21]⟩,
  ⟨[0, 2, 3, 5, 6, 8, 9, 11], [0, 2, 3, 5, 6, 8, 9, 11], [1, 2, 4, 5, 7, 9, 10, 12, 13, 15, 17, 18, 20, 21]⟩,
  ⟨[1, 2, 4, 5, 7, 8, 10, 11], [1, 2, 4, 5, 7, 8, 10, 11], [1, 4, 7, 8, 10, 11, 13, 14, 17, 20]⟩,
  ⟨[0, 1, 3, 4, 6, 7, 9, 10], [0, 1, 3, 4, 6, 7, 9, 10], [2, 5, 8, 9, 11, 12, 14, 15, 18, 21]⟩,
  ⟨[0, 3, 5, 6, 7, 10], [0, 3, 5, 6, 7, 10], [2, 3, 4, 6, 17, 18, 19, 21]⟩,
  ⟨[1, 3, 4, 5, 8, 10, 11], [1, 3, 4, 5, 8, 10, 11], [1, 2, 6, 16, 17, 21]⟩,
  ⟨[2, 4, 5, 6, 9, 11], [2, 4, 5, 6, 9, 11], [1, 4, 5, 6, 16, 19, 20, 21]⟩,
  ⟨[0, 1, 4, 6, 7, 8, 11], [0, 1, 4, 6, 7, 8, 11], [1, 3, 4, 16, 18, 19]⟩,
  ⟨[0, 2, 3, 4, 7, 9, 10, 11], [0, 2, 3, 4, 7, 9, 10, 11], [2, 4, 5, 17, 19, 20]⟩,
  ⟨[1, 2, 3, 6, 8, 9, 10], [1, 2, 3, 6, 8, 9, 10], [3, 5, 6, 18, 20, 21]⟩,
  ⟨[0, 3, 4, 5, 7, 10, 11], [0, 3, 4, 5, 7, 10, 11], [2, 4, 5, 6, 17, 19, 20, 21]⟩,
  ⟨[1, 4, 5, 6, 8, 11], [1, 4, 5, 6, 8, 11], [1, 2, 4, 16, 17, 19]⟩,
  ⟨[2, 3, 4, 6, 9, 10, 11], [2, 3, 4, 6, 9, 10, 11], [2, 3, 5, 17, 18, 20]⟩,
  ⟨[0, 1, 3, 6, 7, 8, 10], [0, 1, 3, 6, 7, 8, 10], [1, 2, 3, 6, 16, 17, 18, 21]⟩,
  ⟨[0, 2, 5, 6, 7, 9], [0, 2, 5, 6, 7, 9], [1, 5, 6, 16, 20, 21]⟩,
  ⟨[1, 2, 3, 5, 8, 9, 10], [1, 2, 3, 5, 8, 9, 10], [1, 3, 4, 5, 16, 18, 19, 20]⟩,
  ⟨[0, 4, 7, 8, 10], [0, 4, 7, 8, 10], [1, 2, 3, 9, 13, 14, 15, 17, 20, 21]⟩,
  ⟨[1, 4, 5, 7, 9, 10, 11], [1, 4, 5, 7, 9, 10, 11], [1, 5, 6, 7, 10, 14, 15, 17, 19, 20]⟩,
  ⟨[2, 5, 6, 8, 10, 11], [2, 5, 6, 8, 10, 11], [2, 6, 7, 8, 11, 15, 16, 18, 20, 21]⟩,
  ⟨[3, 6, 7, 9, 11], [3, 6, 7, 9, 11], [1, 2, 4, 5, 6, 8, 9, 12, 18, 20]⟩,
  ⟨[0, 1, 2, 3, 7, 10, 11], [0, 1, 2, 3, 7, 10, 11], [1, 4, 5, 7, 9, 11, 12, 15, 16, 21]⟩,
  ⟨[0, 1, 5, 8, 9, 11], [0, 1, 5, 8, 9, 11], [1, 2, 3, 4, 6, 10, 11, 12, 13, 15, 16, 19]⟩,
  ⟨[0, 2, 4, 5, 6, 7, 11], [0, 2, 4, 5, 6, 7, 11], [2, 4, 7, 8, 9, 10, 12, 14, 15, 17, 18, 19]⟩,
  ⟨[1, 3, 4, 5, 6, 10], [1, 3, 4, 5, 6, 10], [3, 5, 8, 9, 10, 11, 13, 15, 16, 18, 19, 20]⟩,
  ⟨[2, 3, 5, 7, 8, 9, 10], [2, 3, 5, 7, 8, 9, 10], [3, 4, 5, 6, 8, 12, 13, 14, 15, 17, 18, 21]⟩,
  ⟨[0, 4, 5, 6, 7, 9, 11], [0, 4, 5, 6, 7, 9, 11], [1, 3, 9, 12, 13, 15, 16, 17, 19, 20]⟩,
  ⟨[1, 5, 6, 7, 8, 10], [1, 5, 6, 7, 8, 10], [2, 4, 10, 13, 14, 16, 17, 18, 20, 21]⟩,
  ⟨[2, 6, 7, 8, 9, 11], [2, 6, 7, 8, 9, 11], [1, 2, 4, 6, 7, 11, 14, 15, 16, 20]⟩,
  ⟨[3, 4, 5, 6, 8, 10, 11], [3, 4, 5, 6, 8, 10, 11], [2, 3, 5, 7, 8, 12, 15, 16, 17, 21]⟩,
  ⟨[0, 1, 2, 3, 5, 7, 8, 11], [0, 1, 2, 3, 5, 7, 8, 11], [1, 2, 3, 4, 9, 10, 12, 14, 15, 18, 19, 21]⟩,
  ⟨[0, 1, 4, 8, 9, 10, 11], [0, 1, 4, 8, 9, 10, 11], [1, 2, 5, 7, 8, 9, 13, 19, 20, 21]⟩,
  ⟨[0, 2, 4, 5, 8], [0, 2, 4, 5, 8], [1, 2, 3, 5, 6, 8, 10, 11, 12, 13, 16, 18]⟩,
  ⟨[1, 3, 4, 7, 11], [1, 3, 4, 7, 11], [2, 3, 4, 6, 7, 9, 11, 12, 13, 14, 17, 19]⟩,
  ⟨[2, 3, 4, 5, 7, 9, 10], [2, 3, 4, 5, 7, 9, 10], [2, 5, 6, 8, 9, 10, 11, 15, 17, 18, 19, 20]⟩,
  ⟨[0, 4, 5, 9, 10], [0, 4, 5, 9, 10], [2, 3, 4, 7, 8, 10, 11, 12, 13, 15, 16, 19, 20, 21]⟩,
  ⟨[1, 4, 6, 9, 11], [1, 4, 6, 9, 11], [1, 2, 6, 7, 8, 9, 11, 12, 13, 14, 18, 19]⟩,
  ⟨[2, 4, 7, 9], [2, 4, 7, 9], [2, 3, 7, 8, 9, 10, 12, 13, 14, 15, 19, 20]⟩,
  ⟨[3, 4, 8, 9], [3, 4, 8, 9], [3, 4, 8, 9, 10, 11, 13, 14, 15, 16, 20, 21]⟩,
  ⟨[0, 1, 2, 3, 5, 6, 7, 8, 10, 11], [0, 1, 2, 3, 5, 6, 7, 8, 10, 11], [1, 2, 3, 6, 7, 9, 10, 11, 12, 14, 15, 18, 19, 20]⟩,
  ⟨[0, 1, 5, 6, 10, 11], [0, 1, 5, 6, 10, 11], [1, 6, 8, 11, 13, 18]⟩,
  ⟨[0, 2, 5, 7, 10], [0, 2, 5, 7, 10], [1, 2, 4, 6, 7, 8, 12, 13, 16, 18, 19, 21]⟩,
  ⟨[1, 3, 6, 8, 11], [1, 3, 6, 8, 11], [1, 4, 6, 8, 9, 13, 14, 16, 18, 21]⟩,
  ⟨[2, 3, 7, 8], [2, 3, 7, 8], [3, 8, 10, 13, 15, 20]⟩]

/-- karatsuba.c:1045-1227 `_mzd_ptr_addmul_karatsuba13`. -/
def karaTerms13 : List KaraTerm := [
  ⟨[12], [12], [2, 9, 17, 24]⟩,
  ⟨[0, 2, 3, 5, 6, 8, 9, 11, 12], [0, 2, 3, 5, 6, 8, 9, 11, 12], [2, 4, 5, 7, 8, 9, 10, 12, 13, 15, 16, 17, 18, 20, 21, 23]⟩,
  ⟨[1, 2, 4, 5, 7, 8, 10, 11], [1, 2, 4, 5, 7, 8, 10, 11], [2, 3, 5, 6, 8, 10, 11, 13, 14, 16, 18, 19, 21, 22]⟩,
  ⟨[0, 1, 3, 4, 6, 7, 9, 10, 12], [0, 1, 3, 4, 6, 7, 9, 10, 12], [3, 4, 6, 7, 9, 11, 12, 14, 15, 17, 19, 20, 22, 23]⟩,
  ⟨[0], [0], [0, 1, 7, 8, 15, 16, 22, 23]⟩,
  ⟨[1], [1], [1, 8, 16, 23]⟩,
  ⟨[0, 1], [0, 1], [1, 8, 16, 23]⟩,
  ⟨[0, 2, 4, 6, 8, 10, 12], [0, 2, 4, 6, 8, 10, 12], [2, 3, 4, 5, 6, 7, 8, 17, 18, 19, 20, 21, 22, 23]⟩,
  ⟨[1, 3, 5, 7, 9, 11], [1, 3, 5, 7, 9, 11], [2, 3, 4, 5, 6, 7, 8, 17, 18, 19, 20, 21, 22, 23]⟩,
  ⟨[0, 1, 2, 3, 4, 5, 6, 7, 8, 9, 10, 11, 12], [0, 1, 2, 3, 4, 5, 6, 7, 8, 9, 10, 11, 12], [3, 5, 7, 9, 10, 11, 12, 13, 14, 15, 16, 17, 19, 21, 23]⟩,
  ⟨[0, 3, 5, 6, 7, 10, 12], [0, 3, 5, 6, 7, 10, 12], [2, 3, 4, 6, 17, 18, 19, 21]⟩,
  ⟨[1, 3, 4, 5, 8, 10, 11, 12], [1, 3, 4, 5, 8, 10, 11, 12], [3, 4, 5, 7, 18, 19, 20, 22]⟩,
  ⟨[2, 4, 5, 6, 9, 11, 12], [2, 4, 5, 6, 9, 11, 12], [4, 5, 6, 8, 19, 20, 21, 23]⟩,
  ⟨[0, 1, 4, 6, 7, 8, 11], [0, 1, 4, 6, 7, 8, 11], [2, 5, 6, 7, 17, 20, 21, 22]⟩,
  ⟨[0, 2, 3, 4, 7, 9, 10, 11], [0, 2, 3, 4, 7, 9, 10, 11], [3, 6, 7, 8, 18, 21, 22, 23]⟩,
  ⟨[1, 2, 3, 6, 8, 9, 10], [1, 2, 3, 6, 8, 9, 10], [2, 4, 7, 8, 17, 19, 22, 23]⟩,
  ⟨[0, 3, 4, 5, 7, 10, 11, 12], [0, 3, 4, 5, 7, 10, 11, 12], [2, 4, 5, 6, 17, 19, 20, 21]⟩,
  ⟨[1, 4, 5, 6, 8, 11, 12], [1, 4, 5, 6, 8, 11, 12], [3, 5, 6, 7, 18, 20, 21, 22]⟩,
  ⟨[2, 3, 4, 6, 9, 10, 11], [2, 3, 4, 6, 9, 10, 11], [4, 6, 7, 8, 19, 21, 22, 23]⟩,
  ⟨[0, 1, 3, 6, 7, 8, 10], [0, 1, 3, 6, 7, 8, 10], [2, 3, 6, 8, 17, 18, 21, 23]⟩,
  ⟨[0, 2, 5, 6, 7, 9, 12], [0, 2, 5, 6, 7, 9, 12], [2, 3, 4, 7, 17, 18, 19, 22]⟩,
  ⟨[1, 2, 3, 5, 8, 9, 10, 12], [1, 2, 3, 5, 8, 9, 10, 12], [3, 4, 5, 8, 18, 19, 20, 23]⟩,
  ⟨[0, 4, 7, 8, 10, 12], [0, 4, 7, 8, 10, 12], [4, 5, 6, 7, 9, 13, 14, 15, 16, 18, 19, 22]⟩,
  ⟨[1, 4, 5, 7, 9, 10, 11, 12], [1, 4, 5, 7, 9, 10, 11, 12], [5, 6, 7, 8, 10, 14, 15, 16, 17, 19, 20, 23]⟩,
  ⟨[2, 5, 6, 8, 10, 11, 12], [2, 5, 6, 8, 10, 11, 12], [2, 6, 7, 8, 11, 15, 16, 18, 20, 21]⟩,
  ⟨[3, 6, 7, 9, 11, 12], [3, 6, 7, 9, 11, 12], [3, 7, 8, 9, 12, 16, 17, 19, 21, 22]⟩,
  ⟨[0, 1, 2, 3, 7, 10, 11], [0, 1, 2, 3, 7, 10, 11], [2, 3, 6, 9, 11, 12, 15, 17, 18, 19, 20, 22]⟩,
  ⟨[0, 1, 5, 8, 9, 11], [0, 1, 5, 8, 9, 11], [2, 3, 4, 6, 8, 10, 11, 12, 13, 15, 19, 23]⟩,
  ⟨[0, 2, 4, 5, 6, 7, 11], [0, 2, 4, 5, 6, 7, 11], [3, 5, 6, 9, 10, 12, 14, 15, 20, 21, 22, 23]⟩,
  ⟨[1, 3, 4, 5, 6, 10], [1, 3, 4, 5, 6, 10], [2, 4, 6, 7, 9, 10, 11, 13, 15, 16, 17, 21, 22, 23]⟩,
  ⟨[2, 3, 5, 7, 8, 9, 10], [2, 3, 5, 7, 8, 9, 10], [3, 4, 5, 6, 8, 12, 13, 14, 15, 17, 18, 21]⟩,
  ⟨[0, 4, 5, 6, 7, 9, 11, 12], [0, 4, 5, 6, 7, 9, 11, 12], [2, 4, 5, 6, 7, 9, 12, 13, 15, 18, 21, 22]⟩,
  ⟨[1, 5, 6, 7, 8, 10, 12], [1, 5, 6, 7, 8, 10, 12], [3, 5, 6, 7, 8, 10, 13, 14, 16, 19, 22, 23]⟩,
  ⟨[2, 6, 7, 8, 9, 11], [2, 6, 7, 8, 9, 11], [2, 4, 6, 7, 8, 11, 14, 15, 20, 23]⟩,
  ⟨[3, 4, 5, 6, 8, 10, 11], [3, 4, 5, 6, 8, 10, 11], [2, 3, 5, 7, 8, 12, 15, 16, 17, 21]⟩,
  ⟨[0, 1, 2, 3, 5, 7, 8, 11], [0, 1, 2, 3, 5, 7, 8, 11], [2, 3, 4, 8, 9, 10, 12, 14, 15, 16, 18, 19, 21, 23]⟩,
  ⟨[0, 1, 4, 8, 9, 10, 11], [0, 1, 4, 8, 9, 10, 11], [3, 4, 6, 8, 9, 13, 16, 17, 18, 22]⟩,
  ⟨[0, 2, 4, 5, 8, 12], [0, 2, 4, 5, 8, 12], [4, 7, 8, 10, 11, 12, 13, 17, 19, 20, 21, 22]⟩,
  ⟨[1, 3, 4, 7, 11, 12], [1, 3, 4, 7, 11, 12], [5, 8, 9, 11, 12, 13, 14, 18, 20, 21, 22, 23]⟩,
  ⟨[2, 3, 4, 5, 7, 9, 10], [2, 3, 4, 5, 7, 9, 10], [2, 5, 6, 8, 9, 10, 11, 15, 17, 18, 19, 20]⟩,
  ⟨[0, 4, 5, 9, 10], [0, 4, 5, 9, 10], [5, 6, 10, 11, 12, 13, 15, 16, 17, 18, 22, 23]⟩,
  ⟨[1, 4, 6, 9, 11], [1, 4, 6, 9, 11], [2, 6, 7, 9, 11, 12, 13, 14, 16, 18, 19, 23]⟩,
  ⟨[2, 4, 7, 9, 12], [2, 4, 7, 9, 12], [2, 3, 7, 8, 9, 10, 12, 13, 14, 15, 19, 20]⟩,
  ⟨[3, 4, 8, 9], [3, 4, 8, 9], [3, 4, 8, 9, 10, 11, 13, 14, 15, 16, 20, 21]⟩,
  ⟨[0, 1, 2, 3, 5, 6, 7, 8, 10, 11, 12], [0, 1, 2, 3, 5, 6, 7, 8, 10, 11, 12], [4, 5, 9, 10, 11, 12, 14, 15, 16, 17, 21, 22]⟩,
  ⟨[0, 1, 5, 6, 10, 11], [0, 1, 5, 6, 10, 11], [2, 3, 4, 5, 7, 8, 11, 13, 16, 17, 19, 20, 21, 22]⟩,
  ⟨[0, 2, 5, 7, 10, 12], [0, 2, 5, 7, 10, 12], [3, 5, 8, 12, 13, 17, 20, 22]⟩,
  ⟨[1, 3, 6, 8, 11], [1, 3, 6, 8, 11], [4, 6, 9, 13, 14, 18, 21, 23]⟩,
  ⟨[2, 3, 7, 8, 12], [2, 3, 7, 8, 12], [2, 4, 5, 6, 7, 10, 13, 15, 17, 18, 19, 21, 22, 23]⟩]

/-- karatsuba.c:1228-1430 `_mzd_ptr_addmul_karatsuba14`. -/
def karaTerms14 : List KaraTerm := [
  ⟨[13], [13], [2, 4, 9, 11, 17, 19, 24, 26]⟩,
  ⟨[0, 2, 3, 5, 6, 8, 9, 11, 12], [0, 2, 3, 5, 6, 8, 9, 11, 12], [3, 4, 5, 7, 8, 12, 13, 15, 16, 20, 21, 23, 24, 25]⟩,
  ⟨[1, 2, 4, 5, 7, 8, 10, 11, 13], [1, 2, 4, 5, 7, 8, 10, 11, 13], [2, 5, 6, 8, 11, 13, 14, 16, 19, 21, 22, 25]⟩,
  ⟨[0, 1, 3, 4, 6, 7, 9, 10, 12, 13], [0, 1, 3, 4, 6, 7, 9, 10, 12, 13], [2, 3, 4, 6, 7, 11, 12, 14, 15, 19, 20, 22, 23, 24]⟩,
  ⟨[0], [0], [0, 1, 2, 3, 7, 8, 9, 10, 15, 16, 17, 18, 22, 23, 24, 25]⟩,
  ⟨[1], [1], [1, 3, 8, 10, 16, 18, 23, 25]⟩,
  ⟨[0, 1], [0, 1], [1, 3, 8, 10, 16, 18, 23, 25]⟩,
  ⟨[0, 3, 5, 6, 7, 10, 12, 13], [0, 3, 5, 6, 7, 10, 12, 13], [3, 4, 6, 9, 18, 19, 21, 24]⟩,
  ⟨[1, 3, 4, 5, 8, 10, 11, 12], [1, 3, 4, 5, 8, 10, 11, 12], [4, 5, 7, 10, 19, 20, 22, 25]⟩,
  ⟨[2, 4, 5, 6, 9, 11, 12, 13], [2, 4, 5, 6, 9, 11, 12, 13], [2, 4, 5, 6, 8, 9, 17, 19, 20, 21, 23, 24]⟩,
  ⟨[0, 1, 4, 6, 7, 8, 11, 13], [0, 1, 4, 6, 7, 8, 11, 13], [3, 5, 6, 7, 9, 10, 18, 20, 21, 22, 24, 25]⟩,
  ⟨[0, 2, 3, 4, 7, 9, 10, 11], [0, 2, 3, 4, 7, 9, 10, 11], [2, 6, 7, 8, 9, 10, 17, 21, 22, 23, 24, 25]⟩,
  ⟨[1, 2, 3, 6, 8, 9, 10, 13], [1, 2, 3, 6, 8, 9, 10, 13], [2, 3, 4, 7, 8, 10, 17, 18, 19, 22, 23, 25]⟩,
  ⟨[0, 3, 4, 5, 7, 10, 11, 12], [0, 3, 4, 5, 7, 10, 11, 12], [2, 3, 4, 5, 6, 10, 17, 18, 19, 20, 21, 25]⟩,
  ⟨[1, 4, 5, 6, 8, 11, 12, 13], [1, 4, 5, 6, 8, 11, 12, 13], [2, 3, 5, 6, 7, 9, 17, 18, 20, 21, 22, 24]⟩,
  ⟨[2, 3, 4, 6, 9, 10, 11, 13], [2, 3, 4, 6, 9, 10, 11, 13], [3, 4, 6, 7, 8, 10, 18, 19, 21, 22, 23, 25]⟩,
  ⟨[0, 1, 3, 6, 7, 8, 10, 13], [0, 1, 3, 6, 7, 8, 10, 13], [3, 6, 8, 9, 18, 21, 23, 24]⟩,
  ⟨[0, 2, 5, 6, 7, 9, 12, 13], [0, 2, 5, 6, 7, 9, 12, 13], [4, 7, 9, 10, 19, 22, 24, 25]⟩,
  ⟨[1, 2, 3, 5, 8, 9, 10, 12], [1, 2, 3, 5, 8, 9, 10, 12], [2, 4, 5, 8, 9, 10, 17, 19, 20, 23, 24, 25]⟩,
  ⟨[0, 4, 7, 8, 10, 12, 13], [0, 4, 7, 8, 10, 12, 13], [3, 4, 5, 6, 7, 9, 10, 13, 14, 15, 16, 19, 22, 25]⟩,
  ⟨[1, 4, 5, 7, 9, 10, 11, 12], [1, 4, 5, 7, 9, 10, 11, 12], [2, 5, 6, 7, 8, 9, 10, 14, 15, 16, 19, 20, 23, 24]⟩,
  ⟨[2, 5, 6, 8, 10, 11, 12, 13], [2, 5, 6, 8, 10, 11, 12, 13], [3, 6, 7, 8, 9, 10, 11, 15, 16, 17, 20, 21, 24, 25]⟩,
  ⟨[3, 6, 7, 9, 11, 12, 13], [3, 6, 7, 9, 11, 12, 13], [2, 7, 8, 10, 12, 16, 18, 19, 21, 22, 24, 25]⟩,
  ⟨[0, 1, 2, 3, 7, 10, 11, 13], [0, 1, 2, 3, 7, 10, 11, 13], [2, 3, 6, 9, 11, 12, 15, 17, 18, 19, 20, 22]⟩,
  ⟨[0, 1, 5, 8, 9, 11, 13], [0, 1, 5, 8, 9, 11, 13], [4, 6, 8, 9, 11, 12, 13, 15, 17, 18, 19, 23, 24, 25]⟩,
  ⟨[0, 2, 4, 5, 6, 7, 11], [0, 2, 4, 5, 6, 7, 11], [5, 6, 9, 12, 14, 15, 18, 20, 21, 22, 23, 25]⟩,
  ⟨[1, 3, 4, 5, 6, 10, 13], [1, 3, 4, 5, 6, 10, 13], [2, 4, 6, 7, 9, 10, 11, 13, 15, 16, 17, 21, 22, 23]⟩,
  ⟨[2, 3, 5, 7, 8, 9, 10], [2, 3, 5, 7, 8, 9, 10], [2, 3, 4, 5, 6, 8, 9, 12, 13, 14, 15, 18, 21, 24]⟩,
  ⟨[0, 4, 5, 6, 7, 9, 11, 12], [0, 4, 5, 6, 7, 9, 11, 12], [2, 4, 5, 6, 7, 9, 12, 13, 15, 18, 21, 22]⟩,
  ⟨[1, 5, 6, 7, 8, 10, 12, 13], [1, 5, 6, 7, 8, 10, 12, 13], [3, 5, 6, 7, 8, 10, 13, 14, 16, 19, 22, 23]⟩,
  ⟨[2, 6, 7, 8, 9, 11, 13], [2, 6, 7, 8, 9, 11, 13], [4, 6, 7, 8, 9, 11, 14, 15, 17, 20, 23, 24]⟩,
  ⟨[3, 4, 5, 6, 8, 10, 11], [3, 4, 5, 6, 8, 10, 11], [5, 7, 8, 9, 10, 12, 15, 16, 18, 21, 24, 25]⟩,
  ⟨[0, 1, 2, 3, 5, 7, 8, 11], [0, 1, 2, 3, 5, 7, 8, 11], [2, 3, 4, 8, 9, 10, 12, 14, 15, 16, 18, 19, 21, 23]⟩,
  ⟨[0, 1, 4, 8, 9, 10, 11, 13], [0, 1, 4, 8, 9, 10, 11, 13], [2, 4, 6, 8, 10, 13, 16, 22, 24, 25]⟩,
  ⟨[0, 2, 4, 5, 8, 12, 13], [0, 2, 4, 5, 8, 12, 13], [3, 4, 7, 8, 11, 12, 13, 17, 18, 19, 20, 21, 22, 25]⟩,
  ⟨[1, 3, 4, 7, 11, 12, 13], [1, 3, 4, 7, 11, 12, 13], [2, 5, 8, 11, 12, 13, 14, 17, 18, 20, 21, 22, 23, 24]⟩,
  ⟨[2, 3, 4, 5, 7, 9, 10, 13], [2, 3, 4, 5, 7, 9, 10, 13], [2, 3, 5, 6, 8, 9, 11, 15, 17, 19, 20, 25]⟩,
  ⟨[0, 4, 5, 9, 10], [0, 4, 5, 9, 10], [3, 5, 6, 11, 12, 13, 15, 16, 17, 22, 23, 25]⟩,
  ⟨[1, 4, 6, 9, 11], [1, 4, 6, 9, 11], [2, 6, 7, 9, 11, 12, 13, 14, 16, 18, 19, 23]⟩,
  ⟨[2, 4, 7, 9, 12], [2, 4, 7, 9, 12], [3, 7, 8, 10, 12, 13, 14, 15, 17, 19, 20, 24]⟩,
  ⟨[3, 4, 8, 9, 13], [3, 4, 8, 9, 13], [4, 8, 9, 11, 13, 14, 15, 16, 18, 20, 21, 25]⟩,
  ⟨[0, 1, 2, 3, 5, 6, 7, 8, 10, 11, 12, 13], [0, 1, 2, 3, 5, 6, 7, 8, 10, 11, 12, 13], [2, 4, 5, 10, 11, 12, 14, 15, 16, 21, 22, 24]⟩,
  ⟨[0, 1, 5, 6, 10, 11], [0, 1, 5, 6, 10, 11], [2, 3, 4, 5, 7, 8, 11, 13, 16, 17, 19, 20, 21, 22]⟩,
  ⟨[0, 2, 5, 7, 10, 12], [0, 2, 5, 7, 10, 12], [2, 5, 8, 9, 10, 12, 13, 18, 20, 22, 24, 25]⟩,
  ⟨[1, 3, 6, 8, 11, 13], [1, 3, 6, 8, 11, 13], [2, 3, 4, 6, 10, 13, 14, 17, 21, 23, 24, 25]⟩,
  ⟨[2, 3, 7, 8, 12, 13], [2, 3, 7, 8, 12, 13], [4, 5, 6, 7, 9, 10, 13, 15, 18, 19, 21, 22, 23, 24]⟩,
  ⟨[0, 4, 8, 12], [0, 4, 8, 12], [2, 3, 9, 10, 17, 18, 24, 25]⟩,
  ⟨[1, 5, 9, 13], [1, 5, 9, 13], [2, 3, 9, 10, 17, 18, 24, 25]⟩,
  ⟨[2, 6, 10], [2, 6, 10], [2, 3, 9, 10, 17, 18, 24, 25]⟩,
  ⟨[3, 7, 11], [3, 7, 11], [2, 3, 9, 10, 17, 18, 24, 25]⟩,
  ⟨[0, 1, 2, 3, 4, 5, 6, 7, 8, 9, 10, 11, 12, 13], [0, 1, 2, 3, 4, 5, 6, 7, 8, 9, 10, 11, 12, 13], [5, 7, 9, 11, 12, 13, 14, 15, 16, 17, 18, 19, 21, 23, 25]⟩,
  ⟨[0, 1, 4, 5, 8, 9, 12, 13], [0, 1, 4, 5, 8, 9, 12, 13], [3, 10, 18, 25]⟩,
  ⟨[0, 2, 4, 6, 8, 10, 12], [0, 2, 4, 6, 8, 10, 12], [4, 5, 6, 7, 8, 9, 10, 19, 20, 21, 22, 23, 24, 25]⟩,
  ⟨[1, 3, 5, 7, 9, 11, 13], [1, 3, 5, 7, 9, 11, 13], [2, 4, 5, 6, 7, 8, 10, 17, 19, 20, 21, 22, 23, 25]⟩,
  ⟨[2, 3, 6, 7, 10, 11], [2, 3, 6, 7, 10, 11], [3, 10, 18, 25]⟩]

/-- karatsuba.c:1432-1652 `_mzd_ptr_addmul_karatsuba15`. -/
def karaTerms15 : List KaraTerm := [
  ⟨[14], [14], [1, 3, 6, 8, 10, 13, 16, 18, 21, 23, 25, 28]⟩,
  ⟨[0], [0], [0, 2, 5, 7, 9, 12, 15, 17, 20, 22, 24, 27]⟩,
  ⟨[0, 2, 3, 5, 6, 8, 9, 11, 12, 14], [0, 2, 3, 5, 6, 8, 9, 11, 12, 14], [1, 2, 3, 5, 7, 9, 11, 12, 13, 15, 17, 19, 20, 21, 25, 26]⟩,
  ⟨[1, 2, 4, 5, 7, 8, 10, 11, 13, 14], [1, 2, 4, 5, 7, 8, 10, 11, 13, 14], [2, 3, 4, 6, 8, 10, 12, 13, 14, 16, 18, 20, 21, 22, 26, 27]⟩,
  ⟨[0, 1, 3, 4, 6, 7, 9, 10, 12, 13], [0, 1, 3, 4, 6, 7, 9, 10, 12, 13], [1, 4, 5, 6, 7, 8, 9, 10, 11, 14, 15, 16, 17, 18, 19, 22, 25, 27]⟩,
  ⟨[0, 2, 4, 6, 8, 10, 12, 14], [0, 2, 4, 6, 8, 10, 12, 14], [1, 2, 6, 7, 10, 11, 12, 16, 17, 21, 22, 25, 26, 27]⟩,
  ⟨[1, 3, 5, 7, 9, 11, 13], [1, 3, 5, 7, 9, 11, 13], [1, 2, 6, 7, 10, 11, 12, 16, 17, 21, 22, 25, 26, 27]⟩,
  ⟨[0, 1, 2, 3, 4, 5, 6, 7, 8, 9, 10, 11, 12, 13, 14], [0, 1, 2, 3, 4, 5, 6, 7, 8, 9, 10, 11, 12, 13, 14], [2, 7, 11, 13, 14, 15, 16, 18, 19, 20, 21, 23, 24, 25, 27]⟩,
  ⟨[0, 3, 5, 6, 7, 10, 12, 13, 14], [0, 3, 5, 6, 7, 10, 12, 13, 14], [1, 2, 4, 6, 8, 10, 16, 17, 19, 21, 23, 25]⟩,
  ⟨[1, 3, 4, 5, 8, 10, 11, 12], [1, 3, 4, 5, 8, 10, 11, 12], [2, 3, 5, 7, 9, 11, 17, 18, 20, 22, 24, 26]⟩,
  ⟨[2, 4, 5, 6, 9, 11, 12, 13], [2, 4, 5, 6, 9, 11, 12, 13], [3, 4, 6, 8, 10, 12, 18, 19, 21, 23, 25, 27]⟩,
  ⟨[0, 1, 4, 6, 7, 8, 11, 13, 14], [0, 1, 4, 6, 7, 8, 11, 13, 14], [1, 3, 4, 5, 6, 7, 8, 9, 10, 11, 16, 18, 19, 20, 21, 22, 23, 24, 25, 26]⟩,
  ⟨[0, 2, 3, 4, 7, 9, 10, 11, 14], [0, 2, 3, 4, 7, 9, 10, 11, 14], [2, 4, 5, 6, 7, 8, 9, 10, 11, 12, 17, 19, 20, 21, 22, 23, 24, 25, 26, 27]⟩,
  ⟨[1, 2, 3, 6, 8, 9, 10, 13], [1, 2, 3, 6, 8, 9, 10, 13], [1, 5, 7, 9, 11, 12, 16, 20, 22, 24, 26, 27]⟩,
  ⟨[0, 3, 4, 5, 7, 10, 11, 12, 14], [0, 3, 4, 5, 7, 10, 11, 12, 14], [3, 6, 9, 10, 11, 12, 18, 21, 24, 25, 26, 27]⟩,
  ⟨[1, 4, 5, 6, 8, 11, 12, 13], [1, 4, 5, 6, 8, 11, 12, 13], [1, 3, 4, 6, 7, 8, 11, 12, 16, 18, 19, 21, 22, 23, 26, 27]⟩,
  ⟨[2, 3, 4, 6, 9, 10, 11, 13], [2, 3, 4, 6, 9, 10, 11, 13], [1, 2, 3, 4, 5, 6, 7, 9, 10, 12, 16, 17, 18, 19, 20, 21, 22, 24, 25, 27]⟩,
  ⟨[0, 1, 3, 6, 7, 8, 10, 13, 14], [0, 1, 3, 6, 7, 8, 10, 13, 14], [2, 3, 5, 6, 8, 12, 17, 18, 20, 21, 23, 27]⟩,
  ⟨[0, 2, 5, 6, 7, 9, 12, 13, 14], [0, 2, 5, 6, 7, 9, 12, 13, 14], [1, 4, 7, 8, 9, 10, 16, 19, 22, 23, 24, 25]⟩,
  ⟨[1, 2, 3, 5, 8, 9, 10, 12], [1, 2, 3, 5, 8, 9, 10, 12], [2, 5, 8, 9, 10, 11, 17, 20, 23, 24, 25, 26]⟩,
  ⟨[0, 4, 7, 8, 10, 12, 13, 14], [0, 4, 7, 8, 10, 12, 13, 14], [1, 2, 4, 6, 7, 8, 12, 13, 14, 15, 17, 18, 19, 20, 22, 23, 24, 27]⟩,
  ⟨[1, 4, 5, 7, 9, 10, 11, 12], [1, 4, 5, 7, 9, 10, 11, 12], [1, 2, 5, 6, 7, 9, 10, 14, 15, 19, 20, 24]⟩,
  ⟨[2, 5, 6, 8, 10, 11, 12, 13], [2, 5, 6, 8, 10, 11, 12, 13], [2, 3, 6, 7, 8, 10, 11, 15, 16, 20, 21, 25]⟩,
  ⟨[3, 6, 7, 9, 11, 12, 13, 14], [3, 6, 7, 9, 11, 12, 13, 14], [3, 4, 7, 8, 9, 11, 12, 16, 17, 21, 22, 26]⟩,
  ⟨[0, 1, 2, 3, 7, 10, 11, 13], [0, 1, 2, 3, 7, 10, 11, 13], [2, 4, 6, 9, 10, 12, 15, 17, 20, 22, 25, 26]⟩,
  ⟨[0, 1, 5, 8, 9, 11, 13, 14], [0, 1, 5, 8, 9, 11, 13, 14], [2, 5, 6, 8, 13, 15, 18, 20, 23, 25, 26, 27]⟩,
  ⟨[0, 2, 4, 5, 6, 7, 11, 14], [0, 2, 4, 5, 6, 7, 11, 14], [1, 2, 3, 4, 5, 6, 8, 10, 11, 12, 14, 15, 16, 17, 19, 20, 21, 22, 24, 26]⟩,
  ⟨[1, 3, 4, 5, 6, 10, 13, 14], [1, 3, 4, 5, 6, 10, 13, 14], [2, 3, 4, 5, 6, 7, 9, 11, 12, 13, 15, 16, 17, 18, 20, 21, 22, 23, 25, 27]⟩,
  ⟨[2, 3, 5, 7, 8, 9, 10, 14], [2, 3, 5, 7, 8, 9, 10, 14], [1, 2, 3, 6, 9, 11, 13, 14, 15, 16, 18, 19, 20, 21, 23, 24, 26, 27]⟩,
  ⟨[0, 4, 5, 6, 7, 9, 11, 12], [0, 4, 5, 6, 7, 9, 11, 12], [3, 5, 6, 7, 10, 11, 12, 13, 15, 17, 19, 21, 22, 24, 25, 26]⟩,
  ⟨[1, 5, 6, 7, 8, 10, 12, 13], [1, 5, 6, 7, 8, 10, 12, 13], [4, 6, 7, 8, 11, 12, 13, 14, 16, 18, 20, 22, 23, 25, 26, 27]⟩,
  ⟨[2, 6, 7, 8, 9, 11, 13, 14], [2, 6, 7, 8, 9, 11, 13, 14], [1, 3, 5, 6, 7, 9, 10, 12, 14, 15, 16, 17, 18, 19, 24, 25, 26, 27]⟩,
  ⟨[3, 4, 5, 6, 8, 10, 11, 14], [3, 4, 5, 6, 8, 10, 11, 14], [1, 2, 3, 4, 7, 11, 15, 17, 19, 20, 21, 23, 26, 27]⟩,
  ⟨[0, 1, 2, 3, 5, 7, 8, 11], [0, 1, 2, 3, 5, 7, 8, 11], [3, 4, 5, 8, 10, 14, 15, 16, 17, 18, 19, 20, 21, 23, 24, 27]⟩,
  ⟨[0, 1, 4, 8, 9, 10, 11, 13], [0, 1, 4, 8, 9, 10, 11, 13], [1, 2, 4, 5, 6, 10, 12, 13, 20, 22, 23, 24, 25, 27]⟩,
  ⟨[0, 2, 4, 5, 8, 12, 13, 14], [0, 2, 4, 5, 8, 12, 13, 14], [2, 5, 7, 8, 9, 10, 13, 21, 22, 24, 26, 27]⟩,
  ⟨[1, 3, 4, 7, 11, 12, 13, 14], [1, 3, 4, 7, 11, 12, 13, 14], [1, 9, 11, 13, 14, 16, 18, 21, 22, 27]⟩,
  ⟨[2, 3, 4, 5, 7, 9, 10, 13], [2, 3, 4, 5, 7, 9, 10, 13], [2, 3, 6, 8, 9, 11, 12, 15, 17, 19, 25, 27]⟩,
  ⟨[0, 4, 5, 9, 10, 14], [0, 4, 5, 9, 10, 14], [3, 4, 5, 6, 12, 13, 15, 16, 17, 19, 22, 23, 25, 26]⟩,
  ⟨[1, 4, 6, 9, 11, 14], [1, 4, 6, 9, 11, 14], [4, 5, 6, 7, 13, 14, 16, 17, 18, 20, 23, 24, 26, 27]⟩,
  ⟨[2, 4, 7, 9, 12, 14], [2, 4, 7, 9, 12, 14], [1, 3, 5, 7, 10, 13, 14, 15, 16, 17, 19, 23, 24, 27]⟩,
  ⟨[3, 4, 8, 9, 13, 14], [3, 4, 8, 9, 13, 14], [1, 2, 3, 4, 10, 11, 13, 14, 15, 17, 20, 21, 23, 24]⟩,
  ⟨[0, 1, 2, 3, 5, 6, 7, 8, 10, 11, 12, 13], [0, 1, 2, 3, 5, 6, 7, 8, 10, 11, 12, 13], [2, 3, 4, 5, 11, 12, 14, 15, 16, 18, 21, 22, 24, 25]⟩,
  ⟨[0, 1, 5, 6, 10, 11], [0, 1, 5, 6, 10, 11], [1, 2, 4, 7, 10, 11, 12, 13, 17, 18, 19, 21, 22, 23, 25, 27]⟩,
  ⟨[0, 2, 5, 7, 10, 12], [0, 2, 5, 7, 10, 12], [1, 5, 10, 12, 13, 16, 17, 18, 20, 22, 23, 25]⟩,
  ⟨[1, 3, 6, 8, 11, 13], [1, 3, 6, 8, 11, 13], [2, 6, 11, 13, 14, 17, 18, 19, 21, 23, 24, 26]⟩,
  ⟨[2, 3, 7, 8, 12, 13], [2, 3, 7, 8, 12, 13], [2, 3, 6, 7, 11, 12, 13, 15, 17, 20, 21, 22, 23, 25, 26, 27]⟩,
  ⟨[0, 5, 8, 10, 11, 14], [0, 5, 8, 10, 11, 14], [1, 3, 8, 10, 16, 18, 23, 25]⟩,
  ⟨[1, 6, 9, 11, 12], [1, 6, 9, 11, 12], [1, 3, 4, 5, 8, 10, 11, 12, 16, 18, 19, 20, 23, 25, 26, 27]⟩,
  ⟨[3, 6, 8, 9, 12, 13, 14], [3, 6, 8, 9, 12, 13, 14], [1, 2, 5, 8, 9, 12, 16, 17, 20, 23, 24, 27]⟩,
  ⟨[4, 7, 9, 10, 13, 14], [4, 7, 9, 10, 13, 14], [3, 5, 10, 12, 18, 20, 25, 27]⟩,
  ⟨[0, 4, 5, 7, 8, 9, 11, 13], [0, 4, 5, 7, 8, 9, 11, 13], [3, 10, 18, 25]⟩,
  ⟨[0, 1, 5, 6, 8, 9, 10, 12, 14], [0, 1, 5, 6, 8, 9, 10, 12, 14], [2, 9, 17, 24]⟩,
  ⟨[3, 4, 6, 7, 8, 10, 12], [3, 4, 6, 7, 8, 10, 12], [4, 11, 19, 26]⟩,
  ⟨[1, 2, 4, 5, 6, 8, 10], [1, 2, 4, 5, 6, 8, 10], [1, 3, 5, 8, 10, 12, 16, 18, 20, 23, 25, 27]⟩,
  ⟨[0, 2, 3, 6, 7, 8, 9, 10, 14], [0, 2, 3, 6, 7, 8, 9, 10, 14], [2, 3, 4, 5, 9, 10, 11, 12, 17, 18, 19, 20, 24, 25, 26, 27]⟩,
  ⟨[0, 1, 3, 4, 5, 7, 9, 14], [0, 1, 3, 4, 5, 7, 9, 14], [1, 2, 3, 4, 8, 9, 10, 11, 16, 17, 18, 19, 23, 24, 25, 26]⟩,
  ⟨[0, 1, 2, 4, 6, 11, 14], [0, 1, 2, 4, 6, 11, 14], [1, 2, 3, 4, 5, 8, 9, 10, 11, 12, 16, 17, 18, 19, 20, 23, 24, 25, 26, 27]⟩,
  ⟨[0, 2, 3, 4, 6, 8, 13], [0, 2, 3, 4, 6, 8, 13], [1, 2, 4, 5, 8, 9, 11, 12, 16, 17, 19, 20, 23, 24, 26, 27]⟩,
  ⟨[0, 1, 2, 3, 4, 8, 9, 11, 12, 13], [0, 1, 2, 3, 4, 8, 9, 11, 12, 13], [1, 4, 8, 11, 16, 19, 23, 26]⟩]

/-- karatsuba.c:1654-1886 `_mzd_ptr_addmul_karatsuba16`. -/
def karaTerms16 : List KaraTerm := [
  ⟨[0, 2, 3, 5, 6, 8, 9, 11, 12, 14, 15], [0, 2, 3, 5, 6, 8, 9, 11, 12, 14, 15], [2, 5, 6, 7, 8, 9, 10, 11, 12, 15, 16, 17, 18, 19, 20, 23, 26, 28]⟩,
  ⟨[1, 2, 4, 5, 7, 8, 10, 11, 13, 14], [1, 2, 4, 5, 7, 8, 10, 11, 13, 14], [2, 3, 4, 6, 8, 10, 12, 13, 14, 16, 18, 20, 21, 22, 26, 27]⟩,
  ⟨[0, 1, 3, 4, 6, 7, 9, 10, 12, 13, 15], [0, 1, 3, 4, 6, 7, 9, 10, 12, 13, 15], [3, 4, 5, 7, 9, 11, 13, 14, 15, 17, 19, 21, 22, 23, 27, 28]⟩,
  ⟨[0], [0], [0, 1, 2, 3, 5, 6, 7, 8, 9, 10, 12, 13, 15, 16, 17, 18, 20, 21, 22, 23, 24, 25, 27, 28]⟩,
  ⟨[1], [1], [1, 3, 6, 8, 10, 13, 16, 18, 21, 23, 25, 28]⟩,
  ⟨[0, 1], [0, 1], [1, 3, 6, 8, 10, 13, 16, 18, 21, 23, 25, 28]⟩,
  ⟨[0, 2, 4, 6, 8, 10, 12, 14], [0, 2, 4, 6, 8, 10, 12, 14], [2, 3, 7, 8, 11, 12, 13, 17, 18, 22, 23, 26, 27, 28]⟩,
  ⟨[1, 3, 5, 7, 9, 11, 13, 15], [1, 3, 5, 7, 9, 11, 13, 15], [2, 3, 7, 8, 11, 12, 13, 17, 18, 22, 23, 26, 27, 28]⟩,
  ⟨[0, 1, 2, 3, 4, 5, 6, 7, 8, 9, 10, 11, 12, 13, 14, 15], [0, 1, 2, 3, 4, 5, 6, 7, 8, 9, 10, 11, 12, 13, 14, 15], [2, 7, 11, 13, 14, 15, 16, 18, 19, 20, 21, 23, 24, 25, 27]⟩,
  ⟨[15], [15], [2, 3, 4, 5, 7, 8, 9, 10, 11, 12, 14, 15, 17, 18, 19, 20, 22, 23, 24, 25, 26, 27, 29, 30]⟩,
  ⟨[14], [14], [2, 4, 7, 9, 11, 14, 17, 19, 22, 24, 26, 29]⟩,
  ⟨[14, 15], [14, 15], [2, 4, 7, 9, 11, 14, 17, 19, 22, 24, 26, 29]⟩,
  ⟨[0, 3, 5, 6, 7, 10, 12, 13, 14], [0, 3, 5, 6, 7, 10, 12, 13, 14], [2, 3, 4, 13, 17, 18, 19, 28]⟩,
  ⟨[1, 3, 4, 5, 8, 10, 11, 12, 15], [1, 3, 4, 5, 8, 10, 11, 12, 15], [2, 3, 5, 7, 9, 11, 17, 18, 20, 22, 24, 26]⟩,
  ⟨[2, 4, 5, 6, 9, 11, 12, 13], [2, 4, 5, 6, 9, 11, 12, 13], [3, 4, 6, 8, 10, 12, 18, 19, 21, 23, 25, 27]⟩,
  ⟨[0, 1, 4, 6, 7, 8, 11, 13, 14, 15], [0, 1, 4, 6, 7, 8, 11, 13, 14, 15], [4, 5, 7, 9, 11, 13, 19, 20, 22, 24, 26, 28]⟩,
  ⟨[0, 2, 3, 4, 7, 9, 10, 11, 14], [0, 2, 3, 4, 7, 9, 10, 11, 14], [2, 4, 5, 6, 7, 8, 9, 10, 11, 12, 17, 19, 20, 21, 22, 23, 24, 25, 26, 27]⟩,
  ⟨[1, 2, 3, 6, 8, 9, 10, 13, 15], [1, 2, 3, 6, 8, 9, 10, 13, 15], [3, 5, 6, 7, 8, 9, 10, 11, 12, 13, 18, 20, 21, 22, 23, 24, 25, 26, 27, 28]⟩,
  ⟨[0, 3, 4, 5, 7, 10, 11, 12, 14], [0, 3, 4, 5, 7, 10, 11, 12, 14], [3, 6, 9, 10, 11, 12, 18, 21, 24, 25, 26, 27]⟩,
  ⟨[1, 4, 5, 6, 8, 11, 12, 13, 15], [1, 4, 5, 6, 8, 11, 12, 13, 15], [4, 7, 10, 11, 12, 13, 19, 22, 25, 26, 27, 28]⟩,
  ⟨[2, 3, 4, 6, 9, 10, 11, 13], [2, 3, 4, 6, 9, 10, 11, 13], [2, 4, 5, 7, 8, 9, 12, 13, 17, 19, 20, 22, 23, 24, 27, 28]⟩,
  ⟨[0, 1, 3, 6, 7, 8, 10, 13, 14, 15], [0, 1, 3, 6, 7, 8, 10, 13, 14, 15], [2, 3, 5, 6, 8, 12, 17, 18, 20, 21, 23, 27]⟩,
  ⟨[0, 2, 5, 6, 7, 9, 12, 13, 14], [0, 2, 5, 6, 7, 9, 12, 13, 14], [3, 4, 6, 7, 9, 13, 18, 19, 21, 22, 24, 28]⟩,
  ⟨[1, 2, 3, 5, 8, 9, 10, 12, 15], [1, 2, 3, 5, 8, 9, 10, 12, 15], [2, 5, 8, 9, 10, 11, 17, 20, 23, 24, 25, 26]⟩,
  ⟨[0, 4, 7, 8, 10, 12, 13, 14, 15], [0, 4, 7, 8, 10, 12, 13, 14, 15], [2, 3, 4, 7, 10, 12, 14, 15, 16, 17, 19, 20, 21, 22, 24, 25, 27, 28]⟩,
  ⟨[1, 4, 5, 7, 9, 10, 11, 12], [1, 4, 5, 7, 9, 10, 11, 12], [2, 3, 5, 7, 8, 9, 13, 14, 15, 16, 18, 19, 20, 21, 23, 24, 25, 28]⟩,
  ⟨[2, 5, 6, 8, 10, 11, 12, 13], [2, 5, 6, 8, 10, 11, 12, 13], [2, 3, 6, 7, 8, 10, 11, 15, 16, 20, 21, 25]⟩,
  ⟨[3, 6, 7, 9, 11, 12, 13, 14], [3, 6, 7, 9, 11, 12, 13, 14], [3, 4, 7, 8, 9, 11, 12, 16, 17, 21, 22, 26]⟩,
  ⟨[0, 1, 2, 3, 7, 10, 11, 13, 15], [0, 1, 2, 3, 7, 10, 11, 13, 15], [2, 4, 6, 9, 10, 12, 15, 17, 20, 22, 25, 26]⟩,
  ⟨[0, 1, 5, 8, 9, 11, 13, 14, 15], [0, 1, 5, 8, 9, 11, 13, 14, 15], [2, 5, 6, 8, 13, 15, 18, 20, 23, 25, 26, 27]⟩,
  ⟨[0, 2, 4, 5, 6, 7, 11, 14, 15], [0, 2, 4, 5, 6, 7, 11, 14, 15], [2, 4, 5, 11, 12, 13, 14, 15, 17, 18, 19, 20, 22, 23, 24, 25, 26, 28]⟩,
  ⟨[1, 3, 4, 5, 6, 10, 13, 14], [1, 3, 4, 5, 6, 10, 13, 14], [2, 3, 4, 5, 6, 7, 9, 11, 12, 13, 15, 16, 17, 18, 20, 21, 22, 23, 25, 27]⟩,
  ⟨[2, 3, 5, 7, 8, 9, 10, 14], [2, 3, 5, 7, 8, 9, 10, 14], [2, 8, 9, 10, 11, 14, 15, 19, 20, 24, 25, 26, 27, 28]⟩,
  ⟨[0, 4, 5, 6, 7, 9, 11, 12, 15], [0, 4, 5, 6, 7, 9, 11, 12, 15], [3, 5, 6, 7, 10, 11, 12, 13, 15, 17, 19, 21, 22, 24, 25, 26]⟩,
  ⟨[1, 5, 6, 7, 8, 10, 12, 13], [1, 5, 6, 7, 8, 10, 12, 13], [4, 6, 7, 8, 11, 12, 13, 14, 16, 18, 20, 22, 23, 25, 26, 27]⟩,
  ⟨[2, 6, 7, 8, 9, 11, 13, 14], [2, 6, 7, 8, 9, 11, 13, 14], [5, 7, 8, 9, 12, 13, 14, 15, 17, 19, 21, 23, 24, 26, 27, 28]⟩,
  ⟨[3, 4, 5, 6, 8, 10, 11, 14], [3, 4, 5, 6, 8, 10, 11, 14], [2, 4, 6, 7, 8, 10, 11, 13, 15, 16, 17, 18, 19, 20, 25, 26, 27, 28]⟩,
  ⟨[0, 1, 2, 3, 5, 7, 8, 11, 15], [0, 1, 2, 3, 5, 7, 8, 11, 15], [3, 4, 5, 8, 10, 14, 15, 16, 17, 18, 19, 20, 21, 23, 24, 27]⟩,
  ⟨[0, 1, 4, 8, 9, 10, 11, 13, 15], [0, 1, 4, 8, 9, 10, 11, 13, 15], [2, 3, 4, 5, 8, 12, 16, 18, 20, 21, 22, 24, 27, 28]⟩,
  ⟨[0, 2, 4, 5, 8, 12, 13, 14, 15], [0, 2, 4, 5, 8, 12, 13, 14, 15], [2, 5, 7, 8, 9, 10, 13, 21, 22, 24, 26, 27]⟩,
  ⟨[1, 3, 4, 7, 11, 12, 13, 14], [1, 3, 4, 7, 11, 12, 13, 14], [3, 6, 8, 9, 10, 11, 14, 22, 23, 25, 27, 28]⟩,
  ⟨[2, 3, 4, 5, 7, 9, 10, 13], [2, 3, 4, 5, 7, 9, 10, 13], [2, 3, 6, 8, 9, 11, 12, 15, 17, 19, 25, 27]⟩,
  ⟨[0, 4, 5, 9, 10, 14, 15], [0, 4, 5, 9, 10, 14, 15], [3, 4, 5, 6, 12, 13, 15, 16, 17, 19, 22, 23, 25, 26]⟩,
  ⟨[1, 4, 6, 9, 11, 14], [1, 4, 6, 9, 11, 14], [4, 5, 6, 7, 13, 14, 16, 17, 18, 20, 23, 24, 26, 27]⟩,
  ⟨[2, 4, 7, 9, 12, 14], [2, 4, 7, 9, 12, 14], [5, 6, 7, 8, 14, 15, 17, 18, 19, 21, 24, 25, 27, 28]⟩,
  ⟨[3, 4, 8, 9, 13, 14], [3, 4, 8, 9, 13, 14], [2, 4, 6, 8, 11, 14, 15, 16, 17, 18, 20, 24, 25, 28]⟩,
  ⟨[0, 1, 2, 3, 5, 6, 7, 8, 10, 11, 12, 13, 15], [0, 1, 2, 3, 5, 6, 7, 8, 10, 11, 12, 13, 15], [2, 3, 4, 5, 11, 12, 14, 15, 16, 18, 21, 22, 24, 25]⟩,
  ⟨[0, 1, 5, 6, 10, 11, 15], [0, 1, 5, 6, 10, 11, 15], [2, 3, 4, 6, 7, 8, 11, 12, 16, 17, 19, 22, 27, 28]⟩,
  ⟨[0, 2, 5, 7, 10, 12, 15], [0, 2, 5, 7, 10, 12, 15], [3, 5, 6, 8, 12, 17, 20, 21, 22, 28]⟩,
  ⟨[1, 3, 6, 8, 11, 13], [1, 3, 6, 8, 11, 13], [2, 6, 11, 13, 14, 17, 18, 19, 21, 23, 24, 26]⟩,
  ⟨[2, 3, 7, 8, 12, 13], [2, 3, 7, 8, 12, 13], [2, 3, 6, 7, 11, 12, 13, 15, 17, 20, 21, 22, 23, 25, 26, 27]⟩,
  ⟨[0, 5, 8, 10, 11, 14, 15], [0, 5, 8, 10, 11, 14, 15], [6, 13, 21, 28]⟩,
  ⟨[1, 6, 9, 11, 12, 15], [1, 6, 9, 11, 12, 15], [4, 5, 6, 11, 12, 13, 19, 20, 21, 26, 27, 28]⟩,
  ⟨[3, 6, 8, 9, 12, 13, 14, 15], [3, 6, 8, 9, 12, 13, 14, 15], [2, 3, 5, 6, 9, 10, 12, 13, 17, 18, 20, 21, 24, 25, 27, 28]⟩,
  ⟨[4, 7, 9, 10, 13, 14, 15], [4, 7, 9, 10, 13, 14, 15], [3, 5, 10, 12, 18, 20, 25, 27]⟩,
  ⟨[0, 4, 5, 7, 8, 9, 11, 13], [0, 4, 5, 7, 8, 9, 11, 13], [3, 10, 18, 25]⟩,
  ⟨[0, 1, 5, 6, 8, 9, 10, 12, 14], [0, 1, 5, 6, 8, 9, 10, 12, 14], [2, 9, 17, 24]⟩,
  ⟨[3, 4, 6, 7, 8, 10, 12], [3, 4, 6, 7, 8, 10, 12], [4, 11, 19, 26]⟩,
  ⟨[1, 2, 4, 5, 6, 8, 10, 15], [1, 2, 4, 5, 6, 8, 10, 15], [5, 6, 12, 13, 20, 21, 27, 28]⟩,
  ⟨[0, 2, 3, 6, 7, 8, 9, 10, 14, 15], [0, 2, 3, 6, 7, 8, 9, 10, 14, 15], [2, 3, 4, 5, 9, 10, 11, 12, 17, 18, 19, 20, 24, 25, 26, 27]⟩,
  ⟨[0, 1, 3, 4, 5, 7, 9, 14], [0, 1, 3, 4, 5, 7, 9, 14], [2, 4, 6, 9, 11, 13, 17, 19, 21, 24, 26, 28]⟩,
  ⟨[0, 1, 2, 4, 6, 11, 14], [0, 1, 2, 4, 6, 11, 14], [2, 4, 5, 6, 9, 11, 12, 13, 17, 19, 20, 21, 24, 26, 27, 28]⟩,
  ⟨[0, 2, 3, 4, 6, 8, 13], [0, 2, 3, 4, 6, 8, 13], [2, 3, 4, 5, 6, 9, 10, 11, 12, 13, 17, 18, 19, 20, 21, 24, 25, 26, 27, 28]⟩,
  ⟨[0, 1, 2, 3, 4, 8, 9, 11, 12, 13, 15], [0, 1, 2, 3, 4, 8, 9, 11, 12, 13, 15], [3, 4, 6, 10, 11, 13, 18, 19, 21, 25, 26, 28]⟩]

end M4rie
