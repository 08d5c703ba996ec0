import Verif.Proofs.Conv

/-! The conversions at matrix level: `mzed_slice` and `mzed_cling` copy the stored matrix. -/

namespace M4rie
open M4rie.Spec

/-! ### sliced matrices with given contents -/

section
variable {ff : Gf2e}

/-- the sliced matrix with given contents -/
def Mat.spack (X : Mat ff) : Slice :=
  ⟨ff, X.fid, X.nrows, X.ncols, ff.degree, fun k => ofBits fun i j => (X.e i j).1.getLsbD k⟩

@[simp] theorem spack_ff (X : Mat ff) : X.spack.ff = ff := rfl
@[simp] theorem spack_fid (X : Mat ff) : X.spack.fid = X.fid := rfl
@[simp] theorem spack_nrows (X : Mat ff) : X.spack.nrows = X.nrows := rfl
@[simp] theorem spack_ncols (X : Mat ff) : X.spack.ncols = X.ncols := rfl
@[simp] theorem spack_depth (X : Mat ff) : X.spack.depth = ff.degree := rfl

theorem spack_bit (X : Mat ff) (k i j : Nat) : bitAt (X.spack.x k) i j = (X.e i j).1.getLsbD k := by
  show bitAt (ofBits fun i j => (X.e i j).1.getLsbD k) i j = _
  rw [bitAt_ofBits]

theorem spack_rep (X : Mat ff) : SRep X.spack X.e := ⟨rfl, rfl, spack_bit X⟩

theorem SRep.eq_spack' {A : Slice} {M : Nat → Nat → Elem ff} (h : SRep A M) : A = Mat.spack ⟨A.nrows, A.ncols, A.fid, M⟩ := by
  have hx : A.x = (Mat.spack (⟨A.nrows, A.ncols, A.fid, M⟩ : Mat ff)).x := by
    funext k
    refine words_ext fun i j => ?_
    rw [h.bit, spack_bit]
  have h1 := h.ffEq
  have h2 := h.depthEq
  cases A
  simp only at h1 h2 hx
  subst h1 h2
  simp only [Mat.spack, Slice.mk.injEq, true_and]
  exact hx

theorem SRep.eq_spack {A : Slice} {M : Nat → Nat → Elem ff} (h : SRep A M) {B : Slice} (hd : SSameDim A B) :
    A = Mat.spack ⟨B.nrows, B.ncols, B.fid, M⟩ := by
  rw [← hd.nrows, ← hd.ncols, ← hd.fid]; exact h.eq_spack'

theorem SRep.unique {A : Slice} {M M' : Nat → Nat → Elem ff} (h : SRep A M) (h' : SRep A M') : M = M' := by
  funext i j
  apply Elem.ext'
  apply BitVec.eq_of_getLsbD_eq
  intro k _
  rw [← h.bit, ← h'.bit]

end

variable {ff : Gf2e} [IsField ff]

theorem elem_bit_high (x : Elem ff) {k : Nat} (hk : ff.degree ≤ k) : x.1.getLsbD k = false := by
  rw [BitVec.getLsbD]
  exact Nat.testBit_lt_two_pow (lt_of_lt_of_le x.2 (Nat.pow_le_pow_right (by norm_num) hk))

theorem elem_zero_bit (k : Nat) : (0 : Elem ff).1.getLsbD k = false := by
  show (0#64 : Word).getLsbD k = false
  simp

theorem pack_bit (X : Mat ff) (i q : Nat) :
    bitAt X.pack.words i q = (X.e i (q / degreeToW ff.degree)).1.getLsbD (q % degreeToW ff.degree) := by
  unfold Mat.pack
  rw [bitAt_ofBits]

/-- every sliced matrix over the field with `depth = degree` has a content -/
theorem srep_exists (S : Slice) (hf : S.ff = ff) (hd : S.depth = ff.degree) (hz : ∀ k, ff.degree ≤ k → S.x k = fun _ _ => 0#64) :
    ∃ M : Nat → Nat → Elem ff, SRep S M := by
  have h16 : ff.degree ≤ 16 := (Fact.out : FFOK ff).min.e16
  have key : ∀ i j, (wordOfBits (fun k => bitAt (S.x k) i j) ff.degree).toNat < 2 ^ ff.degree := by
    intro i j
    apply Nat.lt_pow_two_of_testBit
    intro b hb
    show (wordOfBits (fun k => bitAt (S.x k) i j) ff.degree).getLsbD b = false
    rw [getLsbD_wordOfBits _ _ (by omega)]
    simp [show ¬ b < ff.degree by omega]
  refine ⟨fun i j => ⟨_, key i j⟩, hf, hd, fun k i j => ?_⟩
  show _ = (wordOfBits (fun k => bitAt (S.x k) i j) ff.degree).getLsbD k
  rw [getLsbD_wordOfBits _ _ (by omega)]
  by_cases hk : k < ff.degree
  · simp [hk]
  · rw [hz k (by omega)]
    simp [hk, bitAt]

/-! ### slicing -/

theorem sliceSetUi_zero (A : Mat ff) : mzdSliceSetUi A.spack 0#64 = (A.scalar 0).spack := by
  have : SRep (mzdSliceSetUi A.spack 0#64) (A.scalar 0).e := by
    refine ⟨rfl, rfl, fun k i j => ?_⟩
    show bitAt (if k < ff.degree then mzdSetUi A.nrows A.ncols (A.spack.x k) ((0#64 : Word).getLsbD k) else A.spack.x k) i j = _
    by_cases hk : k < ff.degree
    · rw [if_pos hk]
      unfold mzdSetUi
      rw [bitAt_ofBits]
      simp only [Mat.scalar, BitVec.getLsbD_zero, Bool.false_and]
      by_cases h : i < A.nrows ∧ j < A.ncols
      · rw [if_pos h, if_pos h, ite_self, elem_zero_bit]
      · rw [if_neg h, if_neg h, spack_bit]
    · rw [if_neg hk, spack_bit, elem_bit_high _ (by omega), elem_bit_high _ (by omega)]
  exact this.eq_spack (B := A.spack) ⟨rfl, rfl, rfl⟩

theorem sliceInit_spack (fid m n : Nat) : mzdSliceInit ff fid m n = Mat.spack (ff := ff) ⟨m, n, fid, fun _ _ => 0⟩ := by
  have : SRep (mzdSliceInit ff fid m n) (fun _ _ => (0 : Elem ff)) := by
    refine ⟨rfl, rfl, fun k i j => ?_⟩
    simp [mzdSliceInit, bitAt, elem_zero_bit]
  exact this.eq_spack'

/-- `A`'s entries inside its dimensions are zero -/
def Mat.IsZero (A : Mat ff) : Prop := ∀ i j, i < A.nrows → j < A.ncols → A.e i j = 0

theorem Mat.scalar_isZero (A : Mat ff) : (A.scalar 0).IsZero := by
  intro i j hi hj
  show (if i < A.nrows ∧ j < A.ncols then (if i = j then (0 : Elem ff) else 0) else A.e i j) = 0
  rw [if_pos ⟨hi, hj⟩, ite_self]

theorem Mat.scalar_copyM (A Z : Mat ff) (hr : A.nrows = Z.nrows) (hc : A.ncols = Z.ncols) : (A.scalar 0).copyM Z = A.copyM Z := by
  refine Mat.ext rfl rfl rfl ?_
  funext i j
  show (if i < Z.nrows ∧ j < Z.ncols then Z.e i j else (if i < A.nrows ∧ j < A.ncols then (if i = j then (0 : Elem ff) else 0) else A.e i j)) =
    if i < Z.nrows ∧ j < Z.ncols then Z.e i j else A.e i j
  rw [hr, hc]
  by_cases h : i < Z.nrows ∧ j < Z.ncols
  · rw [if_pos h, if_pos h]
  · rw [if_neg h, if_neg h, if_neg h]

theorem pack_isZero (Z : Mat ff) : mzedIsZero Z.pack = true ↔ Z.IsZero := Props.C19_is_zero (pack_rep Z)

theorem Mat.copyM_zero {A Z : Mat ff} (hA : A.IsZero) (hZ : Z.IsZero) (hr : A.nrows = Z.nrows) (hc : A.ncols = Z.ncols) : A.copyM Z = A := by
  refine Mat.ext rfl rfl rfl ?_
  funext i j
  show (if i < Z.nrows ∧ j < Z.ncols then Z.e i j else A.e i j) = A.e i j
  by_cases h : i < Z.nrows ∧ j < Z.ncols
  · rw [if_pos h, hZ i j h.1 h.2, hA i j (hr ▸ h.1) (hc ▸ h.2)]
  · rw [if_neg h]

theorem degree_cases : ff.degree = 2 ∨ ff.degree = 3 ∨ ff.degree = 4 ∨ ff.degree = 5 ∨ ff.degree = 6 ∨ ff.degree = 7 ∨ ff.degree = 8 ∨ ff.degree = 9 ∨
    ff.degree = 10 ∨ ff.degree = 11 ∨ ff.degree = 12 ∨ ff.degree = 13 ∨ ff.degree = 14 ∨ ff.degree = 15 ∨ ff.degree = 16 := by
  have h16 : ff.degree ≤ 16 := (Fact.out : FFOK ff).min.e16
  have h2 := IsField.two_le (ff := ff)
  omega

theorem sliceDispatch_spack (A Z : Mat ff) (hA : A.IsZero) (hr : A.nrows = Z.nrows) (hc : A.ncols = Z.ncols) :
    mzedSliceDispatch A.spack Z.pack = some (A.copyM Z).spack := by
  have h16 : ff.degree ≤ 16 := (Fact.out : FFOK ff).min.e16
  have h2 := IsField.two_le (ff := ff)
  by_cases hz : mzedIsZero Z.pack = true
  · rw [Mat.copyM_zero hA ((pack_isZero Z).mp hz) hr hc]
    unfold mzedSliceDispatch
    rw [pack_ff]
    rcases degree_cases (ff := ff) with h | h | h | h | h | h | h | h | h | h | h | h | h | h | h <;> rw [h] <;>
      simp [mzedSlice2, mzedSlice4, mzedSlice8, mzedSlice16, hz, h]
  · have hz' : mzedIsZero Z.pack = false := by simpa using hz
    have hpos : 1 ≤ A.ncols := by
      by_contra hlt
      apply hz
      rw [pack_isZero]
      intro i j _ hj
      omega
    obtain ⟨T', e, hT⟩ := slice_all (d := ff.degree) A.spack Z.pack rfl rfl h2 h16 rfl rfl hc
      (by
        intro k hk i hi c hcc
        rw [spack_bit, hA i c hi hcc, elem_zero_bit]) hz' hpos
    rw [e]
    congr 1
    have hR : SRep T' (A.copyM Z).e := by
      refine ⟨hT.ff, hT.depth, fun k i c => ?_⟩
      rw [hT.bits]
      have hok := okW_ff (ff := ff)
      have hle := le_w (ff := ff)
      simp only [List.mem_range'_1, spack_nrows, spack_ncols]
      show _ = (if i < Z.nrows ∧ c < Z.ncols then Z.e i c else A.e i c).1.getLsbD k
      by_cases hr' : i < Z.nrows ∧ c < Z.ncols
      · rw [if_pos hr']
        by_cases hk : k < ff.degree
        · rw [if_pos ⟨by omega, by omega, by omega⟩, pack_bit, Nat.mul_add_div hok.pos, Nat.mul_add_mod, Nat.div_eq_of_lt (by omega),
            Nat.mod_eq_of_lt (by omega), Nat.add_zero]
        · rw [if_neg (by omega), spack_bit, elem_bit_high _ (by omega), elem_bit_high _ (by omega)]
      · rw [if_neg hr', if_neg (by omega), spack_bit]
    exact hR.eq_spack (B := A.spack) ⟨hT.nrows, hT.ncols, hT.fid⟩

theorem slice_spack (A Z : Mat ff) (hr : A.nrows = Z.nrows) (hc : A.ncols = Z.ncols) : mzedSlice? A.spack Z.pack = some (A.copyM Z).spack := by
  unfold mzedSlice?
  rw [sliceSetUi_zero, sliceDispatch_spack _ _ A.scalar_isZero hr hc, Mat.scalar_copyM A Z hr hc]

/-- the part of `Z` inside its dimensions, zero elsewhere -/
def Mat.trim (Z : Mat ff) : Mat ff := { Z with e := fun i j => if i < Z.nrows ∧ j < Z.ncols then Z.e i j else 0 }

theorem sliceNew_spack (Z : Mat ff) : mzedSliceNew? Z.pack = some Z.trim.spack := by
  unfold mzedSliceNew?
  rw [pack_ff, sliceInit_spack]
  exact sliceDispatch_spack (⟨Z.nrows, Z.ncols, Z.fid, fun _ _ => 0⟩ : Mat ff) Z (fun _ _ _ _ => rfl) rfl rfl

/-! ### clinging -/

/-- or-ing bits into a packed matrix -/
structure OrWith (P : Nat → Nat → Bool) (T T' : Mzed) : Prop where
  ff : T'.ff = T.ff
  fid : T'.fid = T.fid
  nrows : T'.nrows = T.nrows
  ncols : T'.ncols = T.ncols
  w : T'.w = T.w
  bits : ∀ i q, bitAt T'.words i q = (bitAt T.words i q || P i q)

omit ff [IsField ff] in
theorem OrWith.comp {P P' : Nat → Nat → Bool} {T T1 T2 : Mzed} (h : OrWith P T T1) (h' : OrWith P' T1 T2) :
    OrWith (fun i q => P i q || P' i q) T T2 :=
  ⟨h'.ff.trans h.ff, h'.fid.trans h.fid, h'.nrows.trans h.nrows, h'.ncols.trans h.ncols, h'.w.trans h.w,
    fun i q => by rw [h'.bits, h.bits, Bool.or_assoc]⟩

/-- the bits a pass over slices `lo ≤ k < lo+num` contributes -/
def clingBits (n lo num nc : Nat) (F : Slice) (i q : Nat) : Bool :=
  decide (q < n * nc) && (decide (q % n ∈ List.range' lo num) && bitAt (F.x (q % n)) i (q / n))

/-- `P` is a pass contributing slices `lo ≤ k < lo+num`: for a pass that overwrites (`zero`) the row must be zero before -/
def PassOk (n lo num : Nat) (zero : Bool) (P : ClingPass) : Prop :=
  ∀ (F : Slice) (T : Mzed) (i : Nat), T.w = n → 1 ≤ T.ncols →
    (zero = true → ∀ q < n * T.ncols, bitAt T.words i q = false) →
    ∃ T', P.runRow n F i T = some T' ∧ OrWith (fun i' q => decide (i' = i) && clingBits n lo num T.ncols F i' q) T T'

omit ff [IsField ff] in
theorem passOk_of_row {n lo num : Nat} {op : ClingOp} {P : ClingPass} (hn : OkW n) (hop : op ≠ .masked)
    (h : ∀ (width : Nat) (_ : 1 ≤ width) (mask : Word) (f : Nat → Nat → Word) (t : Nat → Word),
      ∃ t', P.row n width mask f t = some t' ∧ ∀ b p, p < 64 → (t' b).getLsbD p =
        if b < width - 1 ∨ (b = width - 1 ∧ mask.getLsbD p) then clingBit n lo num op f t b p else (t b).getLsbD p) :
    PassOk n lo num (decide (op = .set)) P := by
  intro F T i hw hc hz
  have hpos := hn.pos
  have hwidth : T.width = (n * T.ncols + 63) / 64 := by unfold Mzed.width Mzed.bitCols; rw [hw]
  have hmask : T.highBitmask = leftBitmask (n * T.ncols % 64) := by unfold Mzed.highBitmask Mzed.bitCols; rw [hw]
  have hw1 : 1 ≤ T.width := by
    rw [hwidth]
    have : n * 1 ≤ n * T.ncols := Nat.mul_le_mul_left _ hc
    omega
  obtain ⟨t', e, ht⟩ := h T.width hw1 T.highBitmask (fun k b => F.x k i b) (T.words i)
  unfold ClingPass.runRow
  rw [e, Option.map_some]
  refine ⟨_, rfl, rfl, rfl, rfl, rfl, rfl, ?_⟩
  intro i' q
  rw [hwidth, hmask] at ht
  have hs := row_to_spec hn hc ht q
  have e1 : bitAt (setRow T.words i t') i' q = if i' = i then rowBit t' q else bitAt T.words i' q := by
    unfold bitAt setRow rowBit
    by_cases hi : i' = i
    · rw [if_pos hi, if_pos hi]
    · rw [if_neg hi, if_neg hi]
  show bitAt (setRow T.words i t') i' q = _
  rw [e1]
  by_cases hi : i' = i
  · subst hi
    rw [if_pos rfl, hs]
    unfold clingRowSpec clingBits
    simp only [decide_true, Bool.true_and]
    have e2 : rowBit (T.words i') q = bitAt T.words i' q := rfl
    have e3 : rowBit (fun b => F.x (q % n) i' b) (q / n) = bitAt (F.x (q % n)) i' (q / n) := rfl
    rw [e2, e3]
    by_cases hq : q < n * T.ncols
    · rw [if_pos hq, decide_eq_true hq, Bool.true_and]
      cases op with
      | set => rw [hz (by simp) q hq]; simp
      | or => simp
      | masked => exact absurd rfl hop
    · rw [if_neg hq, decide_eq_false hq]
      simp
  · rw [if_neg hi, decide_eq_false hi]
    simp

omit ff [IsField ff] in
theorem passOk_canon {n : Nat} (hn : OkW n) (lo num : Nat) (hhi : lo + num ≤ n) {op : ClingOp} (hop : op ≠ .masked) :
    PassOk n lo num (decide (op = .set)) (canonCling n lo num op) :=
  passOk_of_row hn hop fun width hw mask f t => canonCling_row hn lo num hhi hop width hw mask f t

omit ff [IsField ff] in
theorem passOk_canonB {n : Nat} (hn : OkW n) (lo num : Nat) (hhi : lo + num ≤ n) :
    PassOk n lo num true (canonClingB n lo num) :=
  passOk_of_row (op := .set) hn (by simp) fun width hw mask f t => canonClingB_row hn lo num hhi width hw mask f t

omit ff [IsField ff] in
theorem PassOk.run {n lo num : Nat} {zero : Bool} {P : ClingPass} (h : PassOk n lo num zero P) (F : Slice) (T : Mzed) (hw : T.w = n)
    (hc : 1 ≤ T.ncols) (hz : zero = true → ∀ i < T.nrows, ∀ q < n * T.ncols, bitAt T.words i q = false) :
    ∃ T', P.run n F T = some T' ∧ OrWith (fun i q => decide (i < T.nrows) && clingBits n lo num T.ncols F i q) T T' := by
  unfold ClingPass.run
  have key : ∀ m, m ≤ T.nrows → ∃ T', forNM (fun i T => P.runRow n F i T) m T = some T' ∧
      OrWith (fun i q => decide (i < m) && clingBits n lo num T.ncols F i q) T T' := by
    intro m
    induction m with
    | zero => intro _; exact ⟨T, rfl, rfl, rfl, rfl, rfl, rfl, fun i q => by simp⟩
    | succ m ih =>
      intro hm
      obtain ⟨T1, e1, h1⟩ := ih (by omega)
      obtain ⟨T2, e2, h2⟩ := h F T1 m (by rw [h1.w, hw]) (by rw [h1.ncols]; exact hc) (by
        intro hzz q hq
        rw [h1.ncols] at hq
        rw [h1.bits, hz hzz m (by omega) q hq]
        simp)
      refine ⟨T2, ?_, ?_⟩
      · unfold forNM
        rw [e1, Option.bind_some]
        exact e2
      · have := h1.comp h2
        refine ⟨this.ff, this.fid, this.nrows, this.ncols, this.w, fun i q => ?_⟩
        rw [this.bits, h1.ncols]
        have : (decide (i < m + 1)) = (decide (i < m) || decide (i = m)) := by
          by_cases h1 : i < m <;> by_cases h2 : i = m <;> simp [h1, h2] <;> omega
        rw [this]
        cases decide (i < m) <;> cases decide (i = m) <;> simp
  exact key T.nrows le_rfl

omit ff [IsField ff] in
theorem clingBits_append (n lo num num2 nc : Nat) (F : Slice) (i q : Nat) :
    (clingBits n lo num nc F i q || clingBits n (lo + num) num2 nc F i q) = clingBits n lo (num + num2) nc F i q := by
  unfold clingBits
  simp only [List.mem_range'_1]
  have : decide (lo ≤ q % n ∧ q % n < lo + (num + num2)) = (decide (lo ≤ q % n ∧ q % n < lo + num) || decide (lo + num ≤ q % n ∧ q % n < lo + num + num2)) := by
    by_cases h1 : lo ≤ q % n ∧ q % n < lo + num <;> by_cases h2 : lo + num ≤ q % n ∧ q % n < lo + num + num2 <;> simp [h1, h2] <;> omega
  rw [this]
  cases decide (q < n * nc) <;> cases decide (lo ≤ q % n ∧ q % n < lo + num) <;> cases decide (lo + num ≤ q % n ∧ q % n < lo + num + num2) <;> simp

/-- the nested loops of `_mzed_cling16` for degrees 13..16 -/
theorem cling16_nest {F : Slice} {T : Mzed} (hw : T.w = 16) (hc : 1 ≤ T.ncols) {Q : ClingPass} {num2 : Nat} (hQ : PassOk 16 12 num2 false Q)
    {g : Mzed → Option Mzed} (hg : ∀ T', T'.ff = T.ff → g T' = Q.run 16 F T') :
    ∃ T', forNM (fun i T => (clingPass16_mid.runRow 16 F i T).bind g) T.nrows T = some T' ∧
      OrWith (fun i q => decide (i < T.nrows) && clingBits 16 8 (4 + num2) T.ncols F i q) T T' := by
  have o16 : OkW 16 := Or.inr (Or.inr (Or.inr rfl))
  have hM : PassOk 16 8 4 false clingPass16_mid := by
    rw [clingPass16_mid_eq]; exact passOk_canon o16 8 4 (by norm_num) (op := .or) (by simp)
  have key : ∀ m, m ≤ T.nrows → ∃ T', forNM (fun i T => (clingPass16_mid.runRow 16 F i T).bind g) m T = some T' ∧
      OrWith (fun i q => (decide (i < m) && clingBits 16 8 4 T.ncols F i q) ||
        (decide (1 ≤ m ∧ i < T.nrows) && clingBits 16 12 num2 T.ncols F i q)) T T' := by
    intro m
    induction m with
    | zero => intro _; exact ⟨T, rfl, rfl, rfl, rfl, rfl, rfl, fun i q => by simp⟩
    | succ m ih =>
      intro hm
      obtain ⟨T1, e1, h1⟩ := ih (by omega)
      obtain ⟨T2, e2, h2⟩ := hM F T1 m (by rw [h1.w, hw]) (by rw [h1.ncols]; exact hc) (by simp)
      obtain ⟨T3, e3, h3⟩ := hQ.run F T2 (by rw [h2.w, h1.w, hw]) (by rw [h2.ncols, h1.ncols]; exact hc) (by simp)
      refine ⟨T3, ?_, ?_⟩
      · unfold forNM
        rw [e1, Option.bind_some, e2, Option.bind_some, hg _ (by rw [h2.ff, h1.ff]), e3]
      · have := (h1.comp h2).comp h3
        refine ⟨this.ff, this.fid, this.nrows, this.ncols, this.w, fun i q => ?_⟩
        rw [this.bits, h2.ncols, h1.ncols, h2.nrows, h1.nrows]
        have e4 : (decide (i < m + 1)) = (decide (i < m) || decide (i = m)) := by
          by_cases h1 : i < m <;> by_cases h2 : i = m <;> simp [h1, h2] <;> omega
        have e5 : decide (1 ≤ m + 1 ∧ i < T.nrows) = decide (i < T.nrows) := by
          by_cases h : i < T.nrows <;> simp [h]
        have e6 : decide (1 ≤ m ∧ i < T.nrows) = (decide (1 ≤ m) && decide (i < T.nrows)) := by
          by_cases h : i < T.nrows <;> by_cases h' : 1 ≤ m <;> simp [h, h']
        rw [e4, e5, e6]
        generalize decide (i < m) = b1
        generalize decide (i = m) = b2
        generalize decide (i < T.nrows) = b3
        generalize decide (1 ≤ m) = b4
        generalize clingBits 16 8 4 T.ncols F i q = b5
        generalize clingBits 16 12 num2 T.ncols F i q = b6
        generalize bitAt T.words i q = b7
        revert b1 b2 b3 b4 b5 b6 b7
        decide
  obtain ⟨T', e, h⟩ := key T.nrows le_rfl
  refine ⟨T', e, h.ff, h.fid, h.nrows, h.ncols, h.w, fun i q => ?_⟩
  rw [h.bits, ← clingBits_append 16 8 4 num2]
  have e5 : decide (1 ≤ T.nrows ∧ i < T.nrows) = decide (i < T.nrows) := by
    by_cases h : i < T.nrows
    · simp [h]; omega
    · simp [h]
  rw [e5]
  generalize decide (i < T.nrows) = b3
  generalize clingBits 16 8 4 T.ncols F i q = b5
  generalize clingBits 16 (8 + 4) num2 T.ncols F i q = b6
  generalize bitAt T.words i q = b7
  revert b3 b5 b6 b7
  decide

theorem spack_isZero (Z : Mat ff) : mzdSliceIsZero Z.spack = true ↔ Z.IsZero := by
  unfold mzdSliceIsZero mzdIsZero
  simp only [List.all_eq_true, List.mem_range, spack_depth, spack_nrows, spack_ncols, spack_bit, Bool.not_eq_true']
  constructor
  · intro h i j hi hj
    apply Elem.ext'
    apply BitVec.eq_of_getLsbD_eq
    intro k _
    rw [elem_zero_bit]
    by_cases hk : k < ff.degree
    · exact h k hk i hi j hj
    · exact elem_bit_high _ (by omega)
  · intro h k hk i hi j hj
    rw [h i j hi hj, elem_zero_bit]

omit [IsField ff] in
/-- The effect of `_mzed_cling*`, all degrees. -/
theorem cling_all {d n : Nat} (T : Mzed) (F : Slice) (hd : F.ff.degree = d) (hT : T.ff.degree = d) (h2 : 2 ≤ d) (h16 : d ≤ 16) (hn : n = degreeToW d)
    (hw : T.w = n) (hz : ∀ i < T.nrows, ∀ q < n * T.ncols, bitAt T.words i q = false) (hnz : mzdSliceIsZero F = false) (hpos : 1 ≤ T.ncols) :
    ∃ T', mzedClingDispatch T F = some T' ∧ OrWith (fun i q => decide (i < T.nrows) && clingBits n 0 d T.ncols F i q) T T' := by
  have o2 : OkW 2 := Or.inl rfl
  have o4 : OkW 4 := Or.inr (Or.inl rfl)
  have o8 : OkW 8 := Or.inr (Or.inr (Or.inl rfl))
  have o16 : OkW 16 := Or.inr (Or.inr (Or.inr rfl))
  unfold mzedClingDispatch
  rw [hd]
  have app : ∀ {T T1 T2 : Mzed} (num num2 : Nat), OrWith (fun i q => decide (i < T.nrows) && clingBits 16 0 num T.ncols F i q) T T1 →
      OrWith (fun i q => decide (i < T1.nrows) && clingBits 16 num num2 T1.ncols F i q) T1 T2 →
      OrWith (fun i q => decide (i < T.nrows) && clingBits 16 0 (num + num2) T.ncols F i q) T T2 := by
    intro T T1 T2 num num2 h1 h2
    have := h1.comp h2
    refine ⟨this.ff, this.fid, this.nrows, this.ncols, this.w, fun i q => ?_⟩
    rw [this.bits, h1.ncols, h1.nrows, ← clingBits_append 16 0 num num2, Nat.zero_add]
    generalize decide (i < T.nrows) = b3
    generalize clingBits 16 0 num T.ncols F i q = b5
    generalize clingBits 16 num num2 T.ncols F i q = b6
    generalize bitAt T.words i q = b7
    revert b3 b5 b6 b7
    decide
  have lo16 : T.w = 16 → n = 16 → ∃ T', clingPass16_lo.run 16 F T = some T' ∧ OrWith (fun i q => decide (i < T.nrows) && clingBits 16 0 8 T.ncols F i q) T T' := by
    intro hw' hn'
    subst hn'
    rw [clingPass16_lo_eq]
    exact (passOk_canon o16 0 8 (by norm_num) (op := .set) (by simp)).run F T hw' hpos (fun _ => hz)
  -- second pass, degrees 9..11
  have second : ∀ {num2 : Nat} {Q : ClingPass} {T1 : Mzed}, T.w = 16 → PassOk 16 8 num2 false Q →
      OrWith (fun i q => decide (i < T.nrows) && clingBits 16 0 8 T.ncols F i q) T T1 →
      ∃ T', Q.run 16 F T1 = some T' ∧ OrWith (fun i q => decide (i < T.nrows) && clingBits 16 0 (8 + num2) T.ncols F i q) T T' := by
    intro num2 Q T1 hw' hQ h1
    obtain ⟨T2, e2, h2⟩ := hQ.run F T1 (by rw [h1.w, hw']) (by rw [h1.ncols]; exact hpos) (by simp)
    exact ⟨T2, e2, app 8 num2 h1 h2⟩
  -- the nested loops, degrees 12..16
  have nest : ∀ {num2 : Nat} {Q : ClingPass} {T1 : Mzed} {g : Mzed → Option Mzed}, T.w = 16 → PassOk 16 12 num2 false Q →
      (∀ T', T'.ff = T.ff → g T' = Q.run 16 F T') →
      OrWith (fun i q => decide (i < T.nrows) && clingBits 16 0 8 T.ncols F i q) T T1 →
      ∃ T', forNM (fun i T => (clingPass16_mid.runRow 16 F i T).bind g) T1.nrows T1 = some T' ∧
        OrWith (fun i q => decide (i < T.nrows) && clingBits 16 0 (8 + (4 + num2)) T.ncols F i q) T T' := by
    intro num2 Q T1 g hw' hQ hg h1
    obtain ⟨T2, e2, h2⟩ := cling16_nest (F := F) (T := T1) (by rw [h1.w, hw']) (by rw [h1.ncols]; exact hpos) hQ
      (g := g) (fun T' hT' => hg T' (by rw [hT', h1.ff]))
    exact ⟨T2, e2, app 8 (4 + num2) h1 h2⟩
  have hcases : d = 2 ∨ d = 3 ∨ d = 4 ∨ d = 5 ∨ d = 6 ∨ d = 7 ∨ d = 8 ∨ d = 9 ∨ d = 10 ∨ d = 11 ∨ d = 12 ∨ d = 13 ∨ d = 14 ∨ d = 15 ∨ d = 16 := by omega
  rcases hcases with rfl | rfl | rfl | rfl | rfl | rfl | rfl | rfl | rfl | rfl | rfl | rfl | rfl | rfl | rfl
  · have hn' : n = 2 := hn
    subst hn'
    simp only [mzedCling2]
    rw [hnz, if_neg (by simp), clingPass2_eq]
    exact (passOk_canonB o2 0 2 (by norm_num)).run F T hw hpos (fun _ => hz)
  · have hn' : n = 4 := hn
    subst hn'
    simp only [mzedCling4]
    rw [hnz, if_neg (by simp), if_neg (by omega), clingPass4_3_eq]
    exact (passOk_canonB o4 0 3 (by norm_num)).run F T hw hpos (fun _ => hz)
  · have hn' : n = 4 := hn
    subst hn'
    simp only [mzedCling4]
    rw [hnz, if_neg (by simp), if_pos hd, clingPass4_4_eq]
    exact (passOk_canonB o4 0 4 (by norm_num)).run F T hw hpos (fun _ => hz)
  · have hn' : n = 8 := hn
    subst hn'
    simp only [mzedCling8]
    rw [hnz, if_neg (by simp), hd]
    simp only [clingPass8_5_eq]
    exact (passOk_canon o8 0 5 (by norm_num) (op := .set) (by simp)).run F T hw hpos (fun _ => hz)
  · have hn' : n = 8 := hn
    subst hn'
    simp only [mzedCling8]
    rw [hnz, if_neg (by simp), hd]
    simp only [clingPass8_6_eq]
    exact (passOk_canon o8 0 6 (by norm_num) (op := .set) (by simp)).run F T hw hpos (fun _ => hz)
  · have hn' : n = 8 := hn
    subst hn'
    simp only [mzedCling8]
    rw [hnz, if_neg (by simp), hd]
    simp only [clingPass8_7_eq]
    exact (passOk_canon o8 0 7 (by norm_num) (op := .set) (by simp)).run F T hw hpos (fun _ => hz)
  · have hn' : n = 8 := hn
    subst hn'
    simp only [mzedCling8]
    rw [hnz, if_neg (by simp), hd]
    simp only [clingPass8_8_eq]
    exact (passOk_canon o8 0 8 (by norm_num) (op := .set) (by simp)).run F T hw hpos (fun _ => hz)
  · have hn' : n = 16 := hn
    obtain ⟨T1, e1, h1⟩ := lo16 (hw.trans hn') hn'
    subst hn'
    simp only [mzedCling16]
    rw [hnz, if_neg (by simp), e1, Option.bind_some, h1.ff, hT, if_pos (by norm_num)]
    simp only [clingPass16_9_eq]
    exact second hw (passOk_canon o16 8 1 (by norm_num) (op := .or) (by simp)) h1
  · have hn' : n = 16 := hn
    obtain ⟨T1, e1, h1⟩ := lo16 (hw.trans hn') hn'
    subst hn'
    simp only [mzedCling16]
    rw [hnz, if_neg (by simp), e1, Option.bind_some, h1.ff, hT, if_pos (by norm_num)]
    simp only [clingPass16_10_eq]
    exact second hw (passOk_canon o16 8 2 (by norm_num) (op := .or) (by simp)) h1
  · have hn' : n = 16 := hn
    obtain ⟨T1, e1, h1⟩ := lo16 (hw.trans hn') hn'
    subst hn'
    simp only [mzedCling16]
    rw [hnz, if_neg (by simp), e1, Option.bind_some, h1.ff, hT, if_pos (by norm_num)]
    simp only [clingPass16_11_eq]
    exact second hw (passOk_canon o16 8 3 (by norm_num) (op := .or) (by simp)) h1
  · have hn' : n = 16 := hn
    obtain ⟨T1, e1, h1⟩ := lo16 (hw.trans hn') hn'
    subst hn'
    simp only [mzedCling16]
    rw [hnz, if_neg (by simp), e1, Option.bind_some, h1.ff, hT, if_neg (by norm_num)]
    -- degree 12: the inner switch does nothing; use that the loop is the middle pass
    obtain ⟨T2, e2, h2⟩ := second (num2 := 4) (Q := clingPass16_mid) hw (by rw [clingPass16_mid_eq]; exact passOk_canon o16 8 4 (by norm_num) (op := .or) (by simp)) h1
    refine ⟨T2, ?_, h2⟩
    rw [← e2]
    unfold ClingPass.run
    have hM : PassOk 16 8 4 false clingPass16_mid := by
      rw [clingPass16_mid_eq]; exact passOk_canon o16 8 4 (by norm_num) (op := .or) (by simp)
    have key : ∀ m, (∃ T', forNM (fun i T => clingPass16_mid.runRow 16 F i T) m T1 = some T' ∧ T'.ff = T.ff ∧ T'.w = 16 ∧ T'.ncols = T.ncols) ∧
        forNM (fun i T => (clingPass16_mid.runRow 16 F i T).bind fun T => match T.ff.degree with
          | 13 => clingPass16_13.run 16 F T | 14 => clingPass16_14.run 16 F T | 15 => clingPass16_15.run 16 F T
          | 16 => clingPass16_16.run 16 F T | _ => some T) m T1 = forNM (fun i T => clingPass16_mid.runRow 16 F i T) m T1 := by
      intro m
      induction m with
      | zero => exact ⟨⟨T1, rfl, h1.ff, h1.w.trans hw, h1.ncols⟩, rfl⟩
      | succ m ih =>
        obtain ⟨⟨T', e, hf, hw', hc'⟩, ih2⟩ := ih
        obtain ⟨T3, e3, h3⟩ := hM F T' m hw' (by rw [hc']; exact hpos) (by simp)
        unfold forNM
        rw [ih2, e, Option.bind_some, Option.bind_some, e3]
        refine ⟨⟨T3, rfl, h3.ff.trans hf, h3.w.trans hw', h3.ncols.trans hc'⟩, ?_⟩
        have hT3 : T3.ff.degree = 12 := by rw [h3.ff, hf, hT]
        rw [Option.bind_some, hT3]
        rfl
    exact (key _).2
  · have hn' : n = 16 := hn
    obtain ⟨T1, e1, h1⟩ := lo16 (hw.trans hn') hn'
    subst hn'
    simp only [mzedCling16]
    rw [hnz, if_neg (by simp), e1, Option.bind_some, h1.ff, hT, if_neg (by norm_num)]
    refine nest hw (passOk_canon o16 12 1 (by norm_num) (op := .or) (by simp)) ?_ h1
    intro T' hT'
    rw [hT', hT]
    simp only [clingPass16_13_eq]
  · have hn' : n = 16 := hn
    obtain ⟨T1, e1, h1⟩ := lo16 (hw.trans hn') hn'
    subst hn'
    simp only [mzedCling16]
    rw [hnz, if_neg (by simp), e1, Option.bind_some, h1.ff, hT, if_neg (by norm_num)]
    refine nest hw (passOk_canon o16 12 2 (by norm_num) (op := .or) (by simp)) ?_ h1
    intro T' hT'
    rw [hT', hT]
    simp only [clingPass16_14_eq]
  · have hn' : n = 16 := hn
    obtain ⟨T1, e1, h1⟩ := lo16 (hw.trans hn') hn'
    subst hn'
    simp only [mzedCling16]
    rw [hnz, if_neg (by simp), e1, Option.bind_some, h1.ff, hT, if_neg (by norm_num)]
    refine nest hw (passOk_canon o16 12 3 (by norm_num) (op := .or) (by simp)) ?_ h1
    intro T' hT'
    rw [hT', hT]
    simp only [clingPass16_15_eq]
  · have hn' : n = 16 := hn
    obtain ⟨T1, e1, h1⟩ := lo16 (hw.trans hn') hn'
    subst hn'
    simp only [mzedCling16]
    rw [hnz, if_neg (by simp), e1, Option.bind_some, h1.ff, hT, if_neg (by norm_num)]
    refine nest hw (passOk_canon o16 12 4 (by norm_num) (op := .or) (by simp)) ?_ h1
    intro T' hT'
    rw [hT', hT]
    simp only [clingPass16_16_eq]

theorem clingDispatch_pack (A Z : Mat ff) (hA : A.IsZero) (hr : A.nrows = Z.nrows) (hc : A.ncols = Z.ncols) :
    mzedClingDispatch A.pack Z.spack = some (A.copyM Z).pack := by
  have h16 : ff.degree ≤ 16 := (Fact.out : FFOK ff).min.e16
  have h2 := IsField.two_le (ff := ff)
  have hok := okW_ff (ff := ff)
  have hle := le_w (ff := ff)
  have hlt : ∀ {q c : Nat}, q < degreeToW ff.degree * c ↔ q / degreeToW ff.degree < c := by
    intro q c
    rw [Nat.div_lt_iff_lt_mul hok.pos, Nat.mul_comm]
  by_cases hz : mzdSliceIsZero Z.spack = true
  · rw [Mat.copyM_zero hA ((spack_isZero Z).mp hz) hr hc]
    unfold mzedClingDispatch
    rw [spack_ff]
    rcases degree_cases (ff := ff) with h | h | h | h | h | h | h | h | h | h | h | h | h | h | h <;> rw [h] <;>
      simp [mzedCling2, mzedCling4, mzedCling8, mzedCling16, hz, h]
  · have hz' : mzdSliceIsZero Z.spack = false := by simpa using hz
    have hpos : 1 ≤ A.ncols := by
      by_contra hlt
      apply hz
      rw [spack_isZero]
      intro i j _ hj
      omega
    have hA' : ∀ i < A.nrows, ∀ q < degreeToW ff.degree * A.ncols, bitAt A.pack.words i q = false := by
      intro i hi q hq
      rw [pack_bit, hA i _ hi (hlt.mp hq), elem_zero_bit]
    obtain ⟨T', e, hT⟩ := cling_all (d := ff.degree) A.pack Z.spack rfl rfl h2 h16 rfl rfl hA' hz' hpos
    rw [e]
    congr 1
    have hwords : T'.words = (A.copyM Z).pack.words := by
      refine words_ext fun i q => ?_
      rw [hT.bits, pack_bit, pack_bit]
      unfold clingBits
      rw [spack_bit]
      show (_ || (decide (i < A.nrows) && (decide (q < degreeToW ff.degree * A.ncols) && (decide (q % degreeToW ff.degree ∈ List.range' 0 ff.degree) && _)))) = (if i < Z.nrows ∧ q / degreeToW ff.degree < Z.ncols then Z.e i (q / degreeToW ff.degree) else A.e i (q / degreeToW ff.degree)).1.getLsbD (q % degreeToW ff.degree)
      by_cases h : i < Z.nrows ∧ q / degreeToW ff.degree < Z.ncols
      · rw [if_pos h, hA i _ (by omega) (by omega), elem_zero_bit, decide_eq_true (show i < A.nrows by omega),
          decide_eq_true (show q < degreeToW ff.degree * A.ncols by rw [hlt]; omega)]
        by_cases hk : q % degreeToW ff.degree < ff.degree
        · simp [hk, List.mem_range'_1]
        · rw [elem_bit_high _ (by omega : ff.degree ≤ q % degreeToW ff.degree)]
          simp
      · rw [if_neg h]
        by_cases hi : i < Z.nrows
        · have : ¬ q < degreeToW ff.degree * A.ncols := by rw [hlt]; omega
          simp [this]
        · have : ¬ i < A.nrows := by omega
          simp [this]
    have h1 := hT.ff
    have h2 := hT.fid
    have h3 := hT.nrows
    have h4 := hT.ncols
    have h5 := hT.w
    cases T'
    simp only at h1 h2 h3 h4 h5 hwords
    subst h1 h2 h3 h4 h5 hwords
    rfl

theorem setUi_zero_pack (A : Mat ff) : mzedSetUi A.pack 0#64 = (A.scalar 0).pack := setUi_pack A 0

theorem cling_pack (A Z : Mat ff) (hr : A.nrows = Z.nrows) (hc : A.ncols = Z.ncols) : mzedCling? A.pack Z.spack = some (A.copyM Z).pack := by
  unfold mzedCling?
  rw [setUi_zero_pack, clingDispatch_pack _ _ A.scalar_isZero hr hc, Mat.scalar_copyM A Z hr hc]

theorem clingNew_pack (Z : Mat ff) : mzedClingNew? Z.spack = some Z.trim.pack := by
  unfold mzedClingNew?
  rw [spack_ff, init_pack]
  exact clingDispatch_pack (⟨Z.nrows, Z.ncols, Z.fid, fun _ _ => 0⟩ : Mat ff) Z (fun _ _ _ _ => rfl) rfl rfl

end M4rie
