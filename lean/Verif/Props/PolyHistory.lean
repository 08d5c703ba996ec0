import Verif.Model.PolyHistory
import Verif.Props.Entry

/-!
# Property C72: programs on matrices over GF(2)[x]

Every sequence of calls of the functions of mzd_poly.h on any number of variables behaves like the same sequence of operations on Mathlib matrices over
`(ZMod 2)[X]`.
-/

namespace M4rie.Props
open M4rie M4rie.Spec Polynomial

/-- the object `P` stores the abstract polynomial matrix `X` -/
structure PolyHolds (P : MzdPoly) (X : APoly) : Prop where
  nrows : P.nrows = X.m
  ncols : P.ncols = X.n
  depth : P.depth = X.depth
  cap : P.cap = X.cap
  val : polyMat X.m X.n P = X.val

/-- the variables store the abstract state -/
def PolyStores (c : PolyPool) (s : APolyState) : Prop :=
  ∀ k, match c k, s k with
    | none, none => True
    | some P, some X => PolyHolds P X
    | _, _ => False

theorem PolyStores.get {c : PolyPool} {s : APolyState} (h : PolyStores c s) {d : Nat} {X : APoly} (hd : s d = some X) :
    ∃ P, c d = some P ∧ PolyHolds P X := by
  have := h d
  rw [hd] at this
  cases hc : c d with
  | none => rw [hc] at this; exact this.elim
  | some P => rw [hc] at this; exact ⟨P, rfl, this⟩

theorem PolyStores.set {c : PolyPool} {s : APolyState} (h : PolyStores c s) (d : Nat) {P : MzdPoly} {X : APoly} (ho : PolyHolds P X) :
    PolyStores (c.set d (some P)) (s.set d (some X)) := by
  intro k
  unfold PolyPool.set APolyState.set
  by_cases hk : k = d
  · simp only [hk, if_true]; exact ho
  · simp only [hk, if_false]; exact h k

theorem PolyStores.unset {c : PolyPool} {s : APolyState} (h : PolyStores c s) (d : Nat) : PolyStores (c.set d none) (s.set d none) := by
  intro k
  unfold PolyPool.set APolyState.set
  by_cases hk : k = d
  · simp only [hk, if_true]
  · simp only [hk, if_false]; exact h k

theorem polyOf_coeff (n : Nat) (f : Nat → ZMod 2) (t : Nat) : (polyOf n f).coeff t = if t < n then f t else 0 := by
  unfold polyOf
  rw [finsetSum_coeff]
  simp only [coeff_monomial]
  rw [Finset.sum_ite_eq' (Finset.range n) t]
  simp only [Finset.mem_range]

theorem PolyPool.set_self (c : PolyPool) (d : Nat) (o : Option MzdPoly) : c.set d o d = o := if_pos rfl
theorem PolyPool.set_ne (c : PolyPool) {d k : Nat} (h : k ≠ d) (o : Option MzdPoly) : c.set d o k = c k := if_neg h
theorem PolyPool.set_set (c : PolyPool) (d : Nat) (o o' : Option MzdPoly) : (c.set d o).set d o' = c.set d o' := by
  funext k
  unfold PolyPool.set
  by_cases hk : k = d
  · rw [if_pos hk, if_pos hk]
  · rw [if_neg hk, if_neg hk, if_neg hk]
theorem PolyPool.set_eta (c : PolyPool) {d : Nat} {P : MzdPoly} (h : c d = some P) : c.set d (some P) = c := by
  funext k
  unfold PolyPool.set
  by_cases hk : k = d
  · rw [if_pos hk, hk, h]
  · rw [if_neg hk]

/-! ### the addition loop -/

/-- the coefficients of the target after `i` additions -/
def addedUpTo (off len i : Nat) (nr nc : Nat) (C A B : Nat → Nat → Nat → Word) : Nat → Nat → Nat → Word :=
  fun t => if ∃ i', i' < i ∧ t = off + ptrAddOrder len i' then mzdAdd nr nc (C t) (A (t - off)) (B (t - off)) else C t

theorem ptrAddOrder_lt {len i : Nat} (h : i < len) : ptrAddOrder len i < len := by unfold ptrAddOrder; split <;> omega
theorem ptrAddOrder_inj {len i j : Nat} (hi : i < len) (hj : j < len) (h : ptrAddOrder len i = ptrAddOrder len j) : i = j := by
  unfold ptrAddOrder at h
  split at h <;> omega
theorem ptrAddOrder_surj {len k : Nat} (h : k < len) : ∃ i, i < len ∧ ptrAddOrder len i = k := by
  unfold ptrAddOrder
  split
  · exact ⟨len - 1 - k, by omega, by omega⟩
  · exact ⟨k, h, rfl⟩

theorem polyAddLoop_eq {c : PolyPool} {d a b off : Nat} {C A B : MzdPoly} (hC : c d = some C) (hA : c a = some A) (hB : c b = some B)
    (h1 : off + A.depth ≤ C.depth) (h2 : A.depth ≤ B.depth) (hr : A.nrows = B.nrows ∧ C.nrows = A.nrows) (hc : A.ncols = B.ncols ∧ C.ncols = A.ncols)
    (hal : off = 0 ∨ d ≠ b ∨ A.depth ≤ 32) :
    polyAddLoop? c d a b off = some (c.set d (some { C with x := fun t => if off ≤ t ∧ t < off + A.depth then mzdAdd A.nrows A.ncols (C.x t) (A.x (t - off)) (B.x (t - off)) else C.x t })) := by
  unfold polyAddLoop?
  rw [hA, Option.bind_some]
  have main : ∀ n, n ≤ A.depth → forNM (fun i c =>
      let k := ptrAddOrder A.depth i
      (c d).bind fun C => (c a).bind fun A => (c b).bind fun B =>
      if off + k < C.depth ∧ k < A.depth ∧ k < B.depth ∧ A.nrows = B.nrows ∧ A.ncols = B.ncols ∧ C.nrows = A.nrows ∧ C.ncols = A.ncols then
        some (c.set d (some { C with x := setSlice C.x (off + k) (mzdAdd A.nrows A.ncols (C.x (off + k)) (A.x k) (B.x k)) }))
      else none) n c = some (c.set d (some { C with x := addedUpTo off A.depth n A.nrows A.ncols C.x A.x B.x })) := by
    intro n
    induction n with
    | zero =>
      intro _
      have : ({ C with x := addedUpTo off A.depth 0 A.nrows A.ncols C.x A.x B.x } : MzdPoly) = C := by
        have : addedUpTo off A.depth 0 A.nrows A.ncols C.x A.x B.x = C.x := by
          funext t
          unfold addedUpTo
          rw [if_neg (by rintro ⟨i, hi, _⟩; omega)]
        rw [this]
      rw [this]
      show some c = _
      rw [PolyPool.set_eta c hC]
    | succ n ih =>
      intro hn
      rw [forNM, ih (by omega), Option.bind_some]
      have hk : ptrAddOrder A.depth n < A.depth := ptrAddOrder_lt (by omega)
      have hnot : ¬ ∃ i', i' < n ∧ off + ptrAddOrder A.depth n = off + ptrAddOrder A.depth i' := by
        rintro ⟨i', h, e⟩
        have := ptrAddOrder_inj (len := A.depth) (by omega) (by omega) (Nat.add_left_cancel e)
        omega
      -- what is read from the operands
      have rA : ∃ A', (c.set d (some { C with x := addedUpTo off A.depth n A.nrows A.ncols C.x A.x B.x })) a = some A' ∧ A'.nrows = A.nrows ∧ A'.ncols = A.ncols ∧
          A'.depth = A.depth ∧ A'.x (ptrAddOrder A.depth n) = A.x (ptrAddOrder A.depth n) := by
        by_cases had : a = d
        · subst had
          rw [hA] at hC
          cases hC
          refine ⟨_, PolyPool.set_self .., rfl, rfl, rfl, ?_⟩
          have : off = 0 := by omega
          subst this
          show addedUpTo 0 _ _ _ _ _ _ _ _ = _
          unfold addedUpTo
          rw [if_neg (by simpa using hnot)]
        · exact ⟨A, by rw [PolyPool.set_ne _ had, hA], rfl, rfl, rfl, rfl⟩
      have rB : ∃ B', (c.set d (some { C with x := addedUpTo off A.depth n A.nrows A.ncols C.x A.x B.x })) b = some B' ∧ B'.nrows = B.nrows ∧ B'.ncols = B.ncols ∧
          B'.depth = B.depth ∧ B'.x (ptrAddOrder A.depth n) = B.x (ptrAddOrder A.depth n) := by
        by_cases hbd : b = d
        · subst hbd
          rw [hB] at hC
          cases hC
          refine ⟨_, PolyPool.set_self .., rfl, rfl, rfl, ?_⟩
          show addedUpTo off _ _ _ _ _ _ _ _ = _
          unfold addedUpTo
          rw [if_neg]
          rintro ⟨i', h, e⟩
          rcases hal with rfl | h' | h'
          · exact hnot ⟨i', h, by rw [← e]; omega⟩
          · exact h' rfl
          · unfold ptrAddOrder at e
            rw [if_pos h', if_pos h'] at e
            omega
        · exact ⟨B, by rw [PolyPool.set_ne _ hbd, hB], rfl, rfl, rfl, rfl⟩
      obtain ⟨A', eA, a1, a2, a3, a4⟩ := rA
      obtain ⟨B', eB, b1, b2, b3, b4⟩ := rB
      show ((c.set d _) d).bind _ = _
      rw [PolyPool.set_self, Option.bind_some, eA, Option.bind_some, eB, Option.bind_some]
      rw [if_pos ⟨by show _ < C.depth; omega, by omega, by omega, by rw [a1, b1]; exact hr.1, by rw [a2, b2]; exact hc.1, by rw [a1]; exact hr.2, by rw [a2]; exact hc.2⟩,
        PolyPool.set_set]
      refine congrArg (fun x => some (c.set d (some { C with x := x }))) ?_
      funext t
      show setSlice (addedUpTo off A.depth n A.nrows A.ncols C.x A.x B.x) _ _ t = _
      unfold setSlice
      by_cases ht : t = off + ptrAddOrder A.depth n
      · rw [if_pos ht, ht]
        have e0 : addedUpTo off A.depth n A.nrows A.ncols C.x A.x B.x (off + ptrAddOrder A.depth n) = C.x (off + ptrAddOrder A.depth n) := if_neg hnot
        have e1 : addedUpTo off A.depth (n + 1) A.nrows A.ncols C.x A.x B.x (off + ptrAddOrder A.depth n) = _ := if_pos ⟨n, by omega, rfl⟩
        show mzdAdd A'.nrows A'.ncols (addedUpTo off A.depth n A.nrows A.ncols C.x A.x B.x (off + ptrAddOrder A.depth n)) _ _ = _
        rw [e0, e1, a1, a2, a4, b4, Nat.add_sub_cancel_left]
      · rw [if_neg ht]
        unfold addedUpTo
        by_cases h : ∃ i', i' < n ∧ t = off + ptrAddOrder A.depth i'
        · obtain ⟨i', p, q⟩ := h
          rw [if_pos ⟨i', p, q⟩, if_pos ⟨i', by omega, q⟩]
        · rw [if_neg h, if_neg]
          rintro ⟨i', p, q⟩
          by_cases hi : i' = n
          · subst hi; exact ht q
          · exact h ⟨i', by omega, q⟩
  rw [main _ le_rfl]
  refine congrArg (fun x => some (c.set d (some { C with x := x }))) ?_
  funext t
  unfold addedUpTo
  by_cases h : off ≤ t ∧ t < off + A.depth
  · obtain ⟨i, hi, e⟩ := ptrAddOrder_surj (len := A.depth) (k := t - off) (by omega)
    rw [if_pos h, if_pos ⟨i, hi, by omega⟩]
  · rw [if_neg h, if_neg]
    rintro ⟨i', p, q⟩
    have := ptrAddOrder_lt p
    omega

/-- what the addition loop leaves in the target -/
theorem polyAdd_holds {C A B : MzdPoly} {m n e p ea pa eb pb off : Nat} {Z X Y : Matrix (Fin m) (Fin n) (ZMod 2)[X]} (hC : PolyHolds C ⟨m, n, e, p, Z⟩)
    (hA : PolyHolds A ⟨m, n, ea, pa, X⟩) (hB : PolyHolds B ⟨m, n, eb, pb, Y⟩) (h1 : off + ea ≤ e) (h2 : ea ≤ eb) :
    PolyHolds { C with x := fun t => if off ≤ t ∧ t < off + A.depth then mzdAdd A.nrows A.ncols (C.x t) (A.x (t - off)) (B.x (t - off)) else C.x t }
      ⟨m, n, e, p, fun i j => polyOf e fun t => if off ≤ t ∧ t < off + ea then (X i j + Y i j).coeff (t - off) else (Z i j).coeff t⟩ := by
  have _ := h1
  refine ⟨hC.nrows, hC.ncols, hC.depth, hC.cap, ?_⟩
  have eA : A.depth = ea := hA.depth
  have eB : B.depth = eb := hB.depth
  have eC : C.depth = e := hC.depth
  have rA : A.nrows = m := hA.nrows
  have cA : A.ncols = n := hA.ncols
  have vA : polyMat m n A = X := hA.val
  have vB : polyMat m n B = Y := hB.val
  have vC : polyMat m n C = Z := hC.val
  ext i j t
  rw [polyMat_coeff, polyOf_coeff]
  show (if t < C.depth then gf2 (bitAt (if off ≤ t ∧ t < off + A.depth then mzdAdd A.nrows A.ncols (C.x t) (A.x (t - off)) (B.x (t - off)) else C.x t) i j) else 0) = _
  rw [eC, eA, rA, cA]
  by_cases ht : t < e
  · rw [if_pos ht, if_pos ht]
    by_cases h : off ≤ t ∧ t < off + ea
    · rw [if_pos h, if_pos h, bitAt_mzdAdd, if_pos ⟨i.2, j.2⟩, coeff_add, ← vA, ← vB, polyMat_coeff, polyMat_coeff, eA, eB, if_pos (by omega), if_pos (by omega), gf2_xor]
      rfl
    · rw [if_neg h, if_neg h, ← vC, polyMat_coeff, eC, if_pos ht]
      rfl
  · rw [if_neg ht, if_neg ht]

/-! ### one call -/

/-- the contracts of M4RI -/
structure PolyLibOk (lib : PolyLib) : Prop where
  cb : ∀ e, lib.cb.Ok e
  cmp : CmpOk lib.cmp

open Classical in
/-- an instance of the parts of M4RI used -/
noncomputable def stdPolyLib : PolyLib :=
  ⟨grayCode, 0, true, 0, fun A B => if A.1 = B.1 ∧ ∀ i j, i < A.1.1 → j < A.1.2 → bitAt A.2 i j = bitAt B.2 i j then 0#32 else 1#32⟩

theorem stdPolyLib_ok : PolyLibOk stdPolyLib :=
  ⟨fun e => grayCode_ok e, fun A B => by
    unfold stdPolyLib
    dsimp only
    split
    · rename_i h; exact ⟨fun _ => h, fun _ => rfl⟩
    · rename_i h; exact ⟨fun h' => absurd h' (by decide), fun h' => absurd h' h⟩⟩

theorem polyAddmulBy_holds {lib : PolyLib} (hl : PolyLibOk lib) {C A B : MzdPoly} {m k n e p ea pa eb pb : Nat} {Z : Matrix (Fin m) (Fin n) (ZMod 2)[X]}
    {X : Matrix (Fin m) (Fin k) (ZMod 2)[X]} {Y : Matrix (Fin k) (Fin n) (ZMod 2)[X]} (alg : PolyAlg) (hC : PolyHolds C ⟨m, n, e, p, Z⟩)
    (hA : PolyHolds A ⟨m, k, ea, pa, X⟩) (hB : PolyHolds B ⟨k, n, eb, pb, Y⟩) (hd : ea + eb - 1 ≤ e) (hdom : alg.Domain ea eb) :
    ∃ R, polyAddmulBy? lib alg C A B = some R ∧ PolyHolds R ⟨m, n, e, p, Z + X * Y⟩ := by
  obtain ⟨a1, a2, a3, a4, a5⟩ := hA
  obtain ⟨b1, b2, b3, b4, b5⟩ := hB
  obtain ⟨c1, c2, c3, c4, c5⟩ := hC
  dsimp only at a1 a2 a3 a4 a5 b1 b2 b3 b4 b5 c1 c2 c3 c4 c5
  subst a1 a2 a3 a4 a5
  have hf : PolyFits C A B := ⟨b1.symm, c1, c2.trans b2.symm⟩
  have fin : ∀ R, HoldsPolySum R C A B → PolyHolds R ⟨A.nrows, n, e, p, Z + polyMat A.nrows A.ncols A * Y⟩ := by
    intro R hR
    refine ⟨hR.same.nrows.trans c1, hR.same.ncols.trans c2, hR.same.depth.trans c3, hR.same.cap.trans c4, ?_⟩
    show polyMat A.nrows n R = _
    have := hR.value
    subst b2
    rw [this, c5, b5]
  cases alg with
  | naive =>
    obtain ⟨R, eR, hR⟩ := C39_naive hf (by rw [b3, c3]; exact hd)
    exact ⟨R, eR, fin R hR⟩
  | karatsuba =>
    obtain ⟨h1, h2, h3⟩ := hdom
    obtain ⟨R, eR, hR⟩ := C39_karatsuba hf (by rw [b3, c3]; exact hd) h2 h3 (h1.trans b3.symm)
    exact ⟨R, eR, fin R hR⟩
  | ext1 =>
    obtain ⟨h1, h2, h3, h4⟩ := hdom
    subst b3
    obtain ⟨R, eR, hR⟩ := C55_ext1 (cb := lib.cb) lib.optK lib.small lib.fid hf (by rw [c3]; exact hd) h1 h2 h3 h4 (hl.cb _)
    exact ⟨R, eR, fin R hR⟩

theorem polyMulBy_holds {A B : MzdPoly} {m k n ea pa eb pb : Nat} {X : Matrix (Fin m) (Fin k) (ZMod 2)[X]} {Y : Matrix (Fin k) (Fin n) (ZMod 2)[X]} (alg : PolyAlg)
    (hA : PolyHolds A ⟨m, k, ea, pa, X⟩) (hB : PolyHolds B ⟨k, n, eb, pb, Y⟩) (h1 : 1 ≤ ea + eb) (hdom : alg.Domain ea eb) (hne : alg ≠ .ext1) :
    ∃ R, polyMulBy? alg A B = some R ∧ PolyHolds R ⟨m, n, ea + eb, ea + eb, X * Y⟩ := by
  obtain ⟨a1, a2, a3, a4, a5⟩ := hA
  obtain ⟨b1, b2, b3, b4, b5⟩ := hB
  dsimp only at a1 a2 a3 a4 a5 b1 b2 b3 b4 b5
  subst a1 a2 a3 a4 a5 b3
  have hi : PolyHolds (mzdPolyInit (A.depth + B.depth - 1) A.nrows B.ncols) ⟨A.nrows, n, A.depth + B.depth, A.depth + B.depth, 0⟩ :=
    ⟨rfl, b2, by show A.depth + B.depth - 1 + 1 = A.depth + B.depth; omega, by show A.depth + B.depth - 1 + 1 = A.depth + B.depth; omega, polyMat_init ..⟩
  have main := fun (lib : PolyLib) (hl : PolyLibOk lib) => polyAddmulBy_holds (lib := lib) hl (C := mzdPolyInit (A.depth + B.depth - 1) A.nrows B.ncols) alg hi
    (A := A) (ea := A.depth) (pa := A.cap) (X := polyMat A.nrows A.ncols A) ⟨rfl, rfl, rfl, rfl, rfl⟩ (B := B) (eb := B.depth) ⟨b1, b2, rfl, b4, b5⟩ (by omega) hdom
  obtain ⟨R, eR, hR⟩ := main stdPolyLib stdPolyLib_ok
  rw [zero_add] at hR
  cases alg with
  | naive => exact ⟨R, eR, hR⟩
  | karatsuba => exact ⟨R, eR, hR⟩
  | ext1 => exact absurd rfl hne

theorem polyMat_congr {m n : Nat} {P Q : MzdPoly} (hd : P.depth = Q.depth) (h : ∀ t, t < P.depth → ∀ i j, i < m → j < n → bitAt (P.x t) i j = bitAt (Q.x t) i j) :
    polyMat m n P = polyMat m n Q := by
  ext i j t
  rw [polyMat_coeff, polyMat_coeff, ← hd]
  by_cases ht : t < P.depth
  · rw [if_pos ht, if_pos ht]
    exact congrArg gf2 (h t ht i j i.2 j.2)
  · rw [if_neg ht, if_neg ht]

theorem writeBit_holds {A : MzdPoly} {m n e p t : Nat} {X : Matrix (Fin m) (Fin n) (ZMod 2)[X]} (hA : PolyHolds A ⟨m, n, e, p, X⟩) (ht : t < e) (i : Fin m) (j : Fin n) (v : Bool) :
    ∃ R, mzdPolyWriteBit? A t i j v = some R ∧
      PolyHolds R ⟨m, n, e, p, fun a b => if a = i ∧ b = j then (X a b).update t (if v then 1 else 0) else X a b⟩ := by
  obtain ⟨a1, a2, a3, a4, a5⟩ := hA
  dsimp only at a1 a2 a3 a4 a5
  subst a1 a2 a3 a4 a5
  refine ⟨{ A with x := setSlice A.x t (mzdWriteBit (A.x t) i j v) }, if_pos ⟨ht, i.2, j.2⟩, rfl, rfl, rfl, rfl, ?_⟩
  refine Matrix.ext fun (a : Fin A.nrows) (b : Fin A.ncols) => Polynomial.ext fun u => ?_
  rw [polyMat_coeff]
  show (if u < A.depth then gf2 (bitAt (setSlice A.x t (mzdWriteBit (A.x t) i j v) u) a b) else 0) =
    (if a = i ∧ b = j then (polyMat A.nrows A.ncols A a b).update t (if v then 1 else 0) else polyMat A.nrows A.ncols A a b).coeff u
  unfold setSlice
  by_cases hu : u = t
  · subst hu
    rw [if_pos ht, if_pos rfl, bitAt_writeBit]
    by_cases h : a = i ∧ b = j
    · rw [if_pos ⟨congrArg Fin.val h.1, congrArg Fin.val h.2⟩, if_pos h, coeff_update_same]
      rfl
    · rw [if_neg (fun h' => h ⟨Fin.ext h'.1, Fin.ext h'.2⟩), if_neg h, polyMat_coeff, if_pos ht]
      rfl
  · rw [if_neg hu]
    by_cases h : a = i ∧ b = j
    · rw [if_pos h, coeff_update_ne _ _ hu, polyMat_coeff]
      rfl
    · rw [if_neg h, polyMat_coeff]
      rfl

theorem randomize_holds {A : MzdPoly} {m n e p : Nat} {X : Matrix (Fin m) (Fin n) (ZMod 2)[X]} (hA : PolyHolds A ⟨m, n, e, p, X⟩) (r : Nat → Nat → Nat → Bool) :
    PolyHolds (mzdPolyRandomize A r) ⟨m, n, e, p, fun i j => polyOf e fun t => if r t i j then 1 else 0⟩ := by
  obtain ⟨a1, a2, a3, a4, a5⟩ := hA
  dsimp only at a1 a2 a3 a4 a5
  subst a1 a2 a3 a4 a5
  obtain ⟨hs, hx⟩ := C42_poly_randomize A r
  refine ⟨hs.nrows, hs.ncols, hs.depth, hs.cap, ?_⟩
  refine Matrix.ext fun (i : Fin A.nrows) (j : Fin A.ncols) => Polynomial.ext fun t => ?_
  rw [polyMat_coeff]
  show (if t < (mzdPolyRandomize A r).depth then gf2 (bitAt ((mzdPolyRandomize A r).x t) i j) else 0) = (polyOf A.depth fun t => if r t i j then 1 else 0).coeff t
  rw [hs.depth, hx, polyOf_coeff]
  by_cases ht : t < A.depth
  · rw [if_pos ht, if_pos ht, if_pos ⟨ht, i.2, j.2⟩]
    rfl
  · rw [if_neg ht, if_neg ht]

/-- **C72** one call: a call that may be made returns what the specification says and leaves the specified matrices behind -/
theorem C72_call {lib : PolyLib} (hl : PolyLibOk lib) {c : PolyPool} {s s' : APolyState} {op : PolyOp} {out : PolyOut} (hc : PolyStores c s)
    (h : PolyAllowed s op out s') : ∃ c', polyCall lib c op = some (c', out) ∧ PolyStores c' s' := by
  cases h with
  | init d deg m n hd => exact ⟨_, rfl, hc.set d ⟨rfl, rfl, rfl, rfl, polyMat_init ..⟩⟩
  | free d hd =>
    obtain ⟨P, e, _⟩ := hc.get hd
    exact ⟨c.set d none, by show (c d).map _ = _; rw [e]; rfl, hc.unset d⟩
  | @writeBit d m n e p X t ht i j v hd =>
    obtain ⟨P, e1, hP⟩ := hc.get hd
    obtain ⟨R, e2, hR⟩ := writeBit_holds hP ht i j v
    refine ⟨c.set d (some R), ?_, hc.set d hR⟩
    show (c d).bind _ = _
    rw [e1, Option.bind_some, e2]; rfl
  | @readBit a m n e p X t ht i j ha =>
    obtain ⟨P, e1, hP⟩ := hc.get ha
    refine ⟨c, ?_, hc⟩
    show (c a).bind _ = _
    have h1 : P.nrows = m := hP.nrows
    have h2 : P.ncols = n := hP.ncols
    have h3 : P.depth = e := hP.depth
    have h4 : polyMat m n P = X := hP.val
    rw [e1, Option.bind_some, if_pos ⟨by omega, by have := i.2; omega, by have := j.2; omega⟩, ← h4, polyMat_coeff, h3, if_pos ht]
    have : bitAt (P.x t) i j = decide (gf2Entry (P.x t) i j = 1) := by
      show _ = decide (gf2 _ = 1)
      cases bitAt (P.x t) i j <;> decide
    rw [this]
  | @randomize d m n e p X r hd =>
    obtain ⟨P, e1, hP⟩ := hc.get hd
    refine ⟨c.set d (some (mzdPolyRandomize P r)), ?_, hc.set d (randomize_holds hP r)⟩
    show (c d).map _ = _
    rw [e1]; rfl
  | @addOffset d a b m n e p ea pa eb pb off Z X Y hd ha hb h1 h2 h3 =>
    obtain ⟨C, e1, hC⟩ := hc.get hd
    obtain ⟨A, e2, hA⟩ := hc.get ha
    obtain ⟨B, e3, hB⟩ := hc.get hb
    have dA : A.depth = ea := hA.depth
    have dB : B.depth = eb := hB.depth
    have dC : C.depth = e := hC.depth
    refine ⟨_, ?_, hc.set d (polyAdd_holds hC hA hB h1 h2)⟩
    show (polyAddLoop? c d a b off).map _ = _
    rw [polyAddLoop_eq e1 e2 e3 (by omega) (by omega) ⟨hA.nrows.trans hB.nrows.symm, hC.nrows.trans hA.nrows.symm⟩ ⟨hA.ncols.trans hB.ncols.symm, hC.ncols.trans hA.ncols.symm⟩
      (by rw [dA]; exact h3)]
    rfl
  | @add d a b m n e p ea pa pb Z X Y hd ha hb h1 =>
    obtain ⟨C, e1, hC⟩ := hc.get hd
    obtain ⟨A, e2, hA⟩ := hc.get ha
    obtain ⟨B, e3, hB⟩ := hc.get hb
    have dA : A.depth = ea := hA.depth
    have dB : B.depth = ea := hB.depth
    have dC : C.depth = e := hC.depth
    have hR := polyAdd_holds (off := 0) hC hA hB (by omega) le_rfl
    simp only [Nat.zero_le, true_and, Nat.zero_add, Nat.sub_zero] at hR
    refine ⟨_, ?_, hc.set d hR⟩
    show (polyAdd? c d a b).map _ = _
    unfold polyAdd?
    rw [e1, Option.bind_some, e2, Option.bind_some, e3, Option.bind_some, if_pos ⟨by omega, by omega⟩]
    rw [polyAddLoop_eq e1 e2 e3 (by omega) (by omega) ⟨hA.nrows.trans hB.nrows.symm, hC.nrows.trans hA.nrows.symm⟩ ⟨hA.ncols.trans hB.ncols.symm, hC.ncols.trans hA.ncols.symm⟩
      (Or.inl rfl)]
    simp only [Nat.zero_le, true_and, Nat.zero_add, Nat.sub_zero]
    rfl
  | @adaptDepth d m n e p e' X hd h1 =>
    obtain ⟨P, e1, hP⟩ := hc.get hd
    obtain ⟨R, e2, r1, r2, r3, r4, r5⟩ := C56_adapt_depth (A := P) (d := e') (by rw [hP.cap]; exact h1)
    refine ⟨c.set d (some R), ?_, hc.set d ⟨r1.trans hP.nrows, r2.trans hP.ncols, r4, r3.trans hP.cap, ?_⟩⟩
    · show (c d).bind _ = _
      rw [e1, Option.bind_some, e2]; rfl
    · show polyMat m n R = _
      have h4 : polyMat m n P = X := hP.val
      ext i j t
      rw [polyOf_coeff]
      by_cases ht : t < e'
      · rw [if_pos ht, r5 m n i j t ht, h4]
      · rw [if_neg ht, polyMat_coeff, r4, if_neg ht]
  | @addmul d a b m k n e p ea pa eb pb Z X Y alg hd ha hb h1 h2 h3 h4 =>
    obtain ⟨C, e1, hC⟩ := hc.get hd
    obtain ⟨A, e2, hA⟩ := hc.get ha
    obtain ⟨B, e3, hB⟩ := hc.get hb
    obtain ⟨R, e4, hR⟩ := polyAddmulBy_holds hl alg hC hA hB h3 h4
    refine ⟨c.set d (some R), ?_, hc.set d hR⟩
    show (if d = a ∨ d = b then none else _) = _
    rw [if_neg (by tauto), e1, Option.bind_some, e2, Option.bind_some, e3, Option.bind_some, e4]
    rfl
  | @mul d a b m k n ea pa eb pb X Y alg hd ha hb h1 h2 h3 =>
    obtain ⟨A, e2, hA⟩ := hc.get ha
    obtain ⟨B, e3, hB⟩ := hc.get hb
    obtain ⟨R, e4, hR⟩ := polyMulBy_holds alg hA hB h1 h2 h3
    refine ⟨c.set d (some R), ?_, hc.set d hR⟩
    show (c a).bind _ = _
    rw [e2, Option.bind_some, e3, Option.bind_some, e4]
    rfl
  | @equal a b m n ea pa eb pb X Y ha hb =>
    obtain ⟨A, e2, hA⟩ := hc.get ha
    obtain ⟨B, e3, hB⟩ := hc.get hb
    refine ⟨c, ?_, hc⟩
    show (c a).bind _ = _
    rw [e2, Option.bind_some, e3]
    obtain ⟨a1, a2, a3, a4, a5⟩ := hA
    obtain ⟨b1, b2, b3, b4, b5⟩ := hB
    dsimp only at a1 a2 a3 a4 a5 b1 b2 b3 b4 b5
    subst a1 a2 a3 a4 a5
    have := C56_cmp hl.cmp (A := A) (B := B) b1.symm b2.symm
    rw [b3, b5] at this
    refine congrArg (fun x => some (c, PolyOut.bit x)) ?_
    exact Bool.eq_iff_iff.2 ⟨fun h => @decide_eq_true _ (_) (this.1 (of_decide_eq_true h)), fun h => decide_eq_true (this.2 (@of_decide_eq_true _ (_) h))⟩

/-- **C72** every program on matrices over GF(2)[x]: whatever the specification says it can return and leave behind is what the library returns and leaves behind -/
theorem C72_program {lib : PolyLib} (hl : PolyLibOk lib) : ∀ (ops : List PolyOp) {c : PolyPool} {s s' : APolyState} {outs : List PolyOut}, PolyStores c s →
    PolyRuns s ops outs s' → ∃ c', polyRun lib c ops = some (c', outs) ∧ PolyStores c' s'
  | [], c, s, s', outs, hc, h => by
    cases h
    exact ⟨c, rfl, hc⟩
  | op :: ops, c, s, s', outs, hc, h => by
    cases h with
    | cons h1 h2 =>
      obtain ⟨c1, e1, hc1⟩ := C72_call hl hc h1
      obtain ⟨c2, e2, hc2⟩ := C72_program hl ops hc1 h2
      refine ⟨c2, ?_, hc2⟩
      show (polyCall lib c op).bind _ = _
      rw [e1, Option.bind_some]
      show (polyRun lib c1 ops).map _ = _
      rw [e2]
      rfl

/-- **C72** a program all of whose calls may be made when their turn comes never dies -/
theorem C72_safe {lib : PolyLib} (hl : PolyLibOk lib) : ∀ (ops : List PolyOp) {c : PolyPool} {s : APolyState}, PolyStores c s → PolySafe s ops →
    ∃ c' outs s', polyRun lib c ops = some (c', outs) ∧ PolyRuns s ops outs s' ∧ PolyStores c' s'
  | [], c, s, hc, _ => ⟨c, [], s, rfl, .nil s, hc⟩
  | op :: ops, c, s, hc, ⟨⟨out, s1, h1⟩, h2⟩ => by
    obtain ⟨c1, e1, hc1⟩ := C72_call hl hc h1
    obtain ⟨c2, outs, s2, e2, r2, hc2⟩ := C72_safe hl ops hc1 (h2 out s1 h1)
    refine ⟨c2, out :: outs, s2, ?_, .cons h1 r2, hc2⟩
    show (polyCall lib c op).bind _ = _
    rw [e1, Option.bind_some]
    show (polyRun lib c1 ops).map _ = _
    rw [e2]
    rfl

/-- **C72, violation**: `_mzd_poly_add(B,A,B,1)`, the addition with an offset into one of its operands, computes `A + B` shifted by one if `A` has at most 32
coefficients (`C72_call`), but not if it has more: then it goes through the coefficients upwards and reads the ones it has already changed.  For `A = 0` and
`B = 1` (of depth at least `A->depth + 1`, 1x1 coefficients) it must give `1 + x`, but all coefficients up to `x^(A->depth)` are set to 1. -/
theorem C72_violation_add_offset {c : PolyPool} {a b : Nat} {A B : MzdPoly} (hA : c a = some A) (hB : c b = some B) (hab : a ≠ b) (h32 : 32 < A.depth)
    (hd : A.depth + 1 ≤ B.depth) (hra : A.nrows = 1 ∧ A.ncols = 1) (hrb : B.nrows = 1 ∧ B.ncols = 1) (va : ∀ t, bitAt (A.x t) 0 0 = false)
    (v0 : bitAt (B.x 0) 0 0 = true) :
    ∃ c' R, polyAddLoop? c b a b 1 = some c' ∧ c' b = some R ∧ ∀ t, t ≤ A.depth → bitAt (R.x t) 0 0 = true := by
  unfold polyAddLoop?
  rw [hA, Option.bind_some]
  have main : ∀ n, n ≤ A.depth → ∃ c' R, forNM (fun i c =>
      let k := ptrAddOrder A.depth i
      (c b).bind fun C => (c a).bind fun A => (c b).bind fun B =>
      if 1 + k < C.depth ∧ k < A.depth ∧ k < B.depth ∧ A.nrows = B.nrows ∧ A.ncols = B.ncols ∧ C.nrows = A.nrows ∧ C.ncols = A.ncols then
        some (c.set b (some { C with x := setSlice C.x (1 + k) (mzdAdd A.nrows A.ncols (C.x (1 + k)) (A.x k) (B.x k)) }))
      else none) n c = some c' ∧ c' a = some A ∧ c' b = some R ∧ R.nrows = 1 ∧ R.ncols = 1 ∧ R.depth = B.depth ∧ ∀ t, t ≤ n → bitAt (R.x t) 0 0 = true := by
    intro n
    induction n with
    | zero => exact fun _ => ⟨c, B, rfl, hA, hB, hrb.1, hrb.2, rfl, fun t ht => by rw [show t = 0 by omega]; exact v0⟩
    | succ n ih =>
      intro hn
      obtain ⟨c1, R, e, ea, eb, r1, r2, r3, r4⟩ := ih (by omega)
      have ho : ptrAddOrder A.depth n = n := if_neg (by omega)
      refine ⟨c1.set b (some { R with x := setSlice R.x (1 + n) (mzdAdd A.nrows A.ncols (R.x (1 + n)) (A.x n) (R.x n)) }),
        { R with x := setSlice R.x (1 + n) (mzdAdd A.nrows A.ncols (R.x (1 + n)) (A.x n) (R.x n)) }, ?_, by rw [PolyPool.set_ne _ hab, ea], PolyPool.set_self .., r1, r2, r3, ?_⟩
      · rw [forNM, e, Option.bind_some]
        show (c1 b).bind _ = _
        rw [eb, Option.bind_some, ea, Option.bind_some, Option.bind_some, ho]
        exact if_pos ⟨by omega, by omega, by omega, by rw [hra.1, r1], by rw [hra.2, r2], by rw [hra.1, r1], by rw [hra.2, r2]⟩
      · intro t ht
        show bitAt (setSlice R.x (1 + n) _ t) 0 0 = true
        unfold setSlice
        by_cases h : t = 1 + n
        · rw [if_pos h, bitAt_mzdAdd, if_pos ⟨by rw [hra.1]; omega, by rw [hra.2]; omega⟩, va, r4 n le_rfl]
          rfl
        · rw [if_neg h]
          exact r4 t (by omega)
  obtain ⟨c', R, e, _, eb, _, _, _, h⟩ := main A.depth le_rfl
  exact ⟨c', R, e, eb, h⟩

/-! ### instances -/

-- the operands of `C72_violation_add_offset`; the required result `x + 1` has no term `x^2`
example : ∃ (c : PolyPool) (A B : MzdPoly), c 0 = some A ∧ c 1 = some B ∧ 32 < A.depth ∧ A.depth + 1 ≤ B.depth ∧ (∀ t, bitAt (A.x t) 0 0 = false) ∧
    bitAt (B.x 0) 0 0 = true ∧ bitAt (A.x 1) 0 0 = bitAt (B.x 1) 0 0 ∧ ∃ s, PolyStores c s :=
  ⟨fun k => if k = 0 then some ⟨1, 1, 33, 33, fun _ _ _ => 0#64⟩ else if k = 1 then some ⟨1, 1, 34, 34, fun t _ _ => if t = 0 then 1#64 else 0#64⟩ else none, _, _, rfl, rfl,
    by decide, by decide, fun _ => by simp [bitAt], by decide, by decide,
    fun k => if k = 0 then some ⟨1, 1, 33, 33, polyMat 1 1 ⟨1, 1, 33, 33, fun _ _ _ => 0#64⟩⟩
      else if k = 1 then some ⟨1, 1, 34, 34, polyMat 1 1 ⟨1, 1, 34, 34, fun t _ _ => if t = 0 then 1#64 else 0#64⟩⟩ else none, by
    intro k
    by_cases h0 : k = 0
    · subst h0; exact ⟨rfl, rfl, rfl, rfl, rfl⟩
    · by_cases h1 : k = 1
      · subst h1; exact ⟨rfl, rfl, rfl, rfl, rfl⟩
      · simp only [h0, h1, if_false]⟩

/-- a program: `A` and `B` are created with 5 and 4 coefficients of size 3x2 and 2x6 and filled, multiplied into a new matrix, then `C += A*B` by evaluation and
interpolation gives zero; `C + C`, truncation and comparison -/
def polyDemo (r : Nat → Nat → Nat → Bool) : List PolyOp :=
  [.init 0 4 3 2, .init 1 3 2 6, .randomize 0 r, .writeBit 1 2 1 5 true, .mul .naive 2 0 1, .addmul .ext1 2 0 1, .init 3 8 3 6, .equal 2 3, .add 2 2 3, .adaptDepth 2 3, .readBit 2 2 1 1,
    .free 0]

-- it is safe, whatever the random bits are
example (r : Nat → Nat → Nat → Bool) : ∃ c' outs, polyRun stdPolyLib (fun _ => none) (polyDemo r) = some (c', outs) := by
  have h0 : PolyStores (fun _ => none) (fun _ => none) := fun _ => trivial
  obtain ⟨c', e, _⟩ := C72_program stdPolyLib_ok (polyDemo r) (c := fun _ => none) (s := fun _ => none) h0 (.cons (.init 0 4 3 2 rfl) (.cons (.init 1 3 2 6 rfl) (.cons (.randomize r rfl) (.cons (.writeBit (by decide) (1 : Fin 2) (5 : Fin 6) true rfl)
    (.cons (.mul .naive rfl rfl rfl (by decide) trivial (by simp)) (.cons (.addmul .ext1 rfl rfl rfl (by decide) (by decide) (by decide) ⟨by decide, by decide, by decide, by decide⟩)
    (.cons (.init 3 8 3 6 rfl) (.cons (.equal rfl rfl) (.cons (.add rfl rfl rfl (by decide)) (.cons (.adaptDepth rfl (by decide))
    (.cons (.readBit (by decide) (1 : Fin 3) (1 : Fin 6) rfl) (.cons (.free 0 rfl) (.nil _)))))))))))))
  exact ⟨c', _, e⟩

end M4rie.Props
