import Verif.Proofs.ConvCling
import Verif.Spec.Slice
import Verif.Proofs.Pack

/-! Matrix-level statements about the conversions, and sliced matrices as stored `Mat`s. -/

namespace M4rie
open M4rie.Spec

theorem rowBit_eq_bitAt (m : Nat → Nat → Word) (i q : Nat) : rowBit (m i) q = bitAt m i q := rfl

theorem words_ext {a b : Nat → Nat → Word} (h : ∀ i p, bitAt a i p = bitAt b i p) : a = b := by
  funext i c
  apply BitVec.eq_of_getLsbD_eq
  intro q hq
  have := h i (64 * c + q)
  unfold bitAt at this
  rw [Nat.mul_add_div (by norm_num), Nat.mul_add_mod, Nat.div_eq_of_lt hq, Nat.mod_eq_of_lt hq, Nat.add_zero] at this
  exact this

/-! ### loops over rows -/

theorem onRows_eq (T : Slice) (row : Nat → (Nat → Nat → Word) → Option (Nat → Nat → Word)) (R : Nat → Nat → Nat → Word)
    (h : ∀ i < T.nrows, row i (fun k b => T.x k i b) = some (R i)) :
    T.onRows row = some { T with x := fun k i b => if i < T.nrows then R i k b else T.x k i b } := by
  unfold Slice.onRows
  have key : ∀ n, n ≤ T.nrows → forNM (fun i x => (row i (fun k b => x k i b)).map (setSlRow x i)) n T.x =
      some (fun k i b => if i < n then R i k b else T.x k i b) := by
    intro n
    induction n with
    | zero => intro _; simp [forNM]
    | succ n ih =>
      intro hn
      unfold forNM
      rw [ih (by omega), Option.bind_some]
      have e : (fun k b => (fun k i b => if i < n then R i k b else T.x k i b) k n b) = (fun k b => T.x k n b) := by
        funext k b; exact if_neg (by omega)
      rw [e, h n (by omega), Option.map_some]
      congr 1
      funext k i b
      unfold setSlRow
      by_cases hi : i = n
      · subst hi; rw [if_pos rfl, if_pos (by omega)]
      · rw [if_neg hi]
        by_cases hlt : i < n
        · exact (if_pos hlt).trans (if_pos (by omega)).symm
        · exact (if_neg hlt).trans (if_neg (by omega)).symm
  rw [key _ (le_refl _)]
  rfl

/-- the effect of slicing passes covering slices `lo ≤ k < lo+num` -/
structure SliceDone (n lo num : Nat) (F : Mzed) (T T' : Slice) : Prop where
  ff : T'.ff = T.ff
  fid : T'.fid = T.fid
  nrows : T'.nrows = T.nrows
  ncols : T'.ncols = T.ncols
  depth : T'.depth = T.depth
  bits : ∀ k i c, bitAt (T'.x k) i c = if k ∈ List.range' lo num ∧ i < T.nrows ∧ c < T.ncols then
    bitAt F.words i (n * c + k) else bitAt (T.x k) i c

theorem sliceDone_of_rows {n lo num : Nat} {F : Mzed} {T : Slice} {row : Nat → (Nat → Nat → Word) → Option (Nat → Nat → Word)}
    (h : ∀ i < T.nrows, ∃ t', row i (fun k b => T.x k i b) = some t' ∧
      ∀ k c, rowBit (t' k) c = if k ∈ List.range' lo num ∧ c < T.ncols then bitAt F.words i (n * c + k) else bitAt (T.x k) i c) :
    ∃ T', T.onRows row = some T' ∧ SliceDone n lo num F T T' := by
  choose! R hR using h
  refine ⟨_, onRows_eq T row R (fun i hi => (hR i hi).1), rfl, rfl, rfl, rfl, rfl, ?_⟩
  intro k i c
  have e : bitAt (fun i b => if i < T.nrows then R i k b else T.x k i b) i c =
      if i < T.nrows then rowBit (R i k) c else bitAt (T.x k) i c := by
    unfold bitAt rowBit
    by_cases hi : i < T.nrows
    · simp only [if_pos hi]
    · simp only [if_neg hi]
  show bitAt (fun i b => if i < T.nrows then R i k b else T.x k i b) i c = _
  rw [e]
  by_cases hi : i < T.nrows
  · rw [if_pos hi, (hR i hi).2 k c]
    by_cases hk : k ∈ List.range' lo num ∧ c < T.ncols
    · rw [if_pos hk, if_pos ⟨hk.1, hi, hk.2⟩]
    · rw [if_neg hk, if_neg (by tauto)]
  · rw [if_neg hi, if_neg (by tauto)]

/-- the region of slices `lo ≤ k < lo+num` is zero -/
def RegionZero (lo num : Nat) (T : Slice) : Prop :=
  ∀ k ∈ List.range' lo num, ∀ i < T.nrows, ∀ c < T.ncols, bitAt (T.x k) i c = false

theorem slicePass_run {n : Nat} (hn : OkW n) (lo num : Nat) (hhi : lo + num ≤ n) (asg : Bool) (T : Slice) (F : Mzed)
    (hw : F.w = n) (hc : T.ncols = F.ncols) (hpos : 1 ≤ T.ncols) (hz : RegionZero lo num T) :
    ∃ T', (canonSlice n lo num asg).run n T F = some T' ∧ SliceDone n lo num F T T' := by
  unfold SlicePass.run
  apply sliceDone_of_rows
  intro i hi
  have hwidth : F.width = (n * T.ncols + 63) / 64 := by
    unfold Mzed.width Mzed.bitCols
    rw [hw, hc]
  rw [hwidth]
  exact canon_row_region hn lo num hhi asg hpos (F.words i) (fun k b => T.x k i b) (fun k hk c hc => hz k hk i hi c hc)

theorem SliceDone.chain {n lo num num2 : Nat} {F : Mzed} {T T1 T2 : Slice} (h1 : SliceDone n lo num F T T1)
    (h2 : SliceDone n (lo + num) num2 F T1 T2) : SliceDone n lo (num + num2) F T T2 := by
  refine ⟨h2.ff.trans h1.ff, h2.fid.trans h1.fid, h2.nrows.trans h1.nrows, h2.ncols.trans h1.ncols, h2.depth.trans h1.depth, ?_⟩
  intro k i c
  rw [h2.bits, h1.bits, h1.nrows, h1.ncols]
  simp only [List.mem_range'_1]
  by_cases hr : i < T.nrows ∧ c < T.ncols
  · by_cases hk2 : lo + num ≤ k ∧ k < lo + num + num2
    · rw [if_pos ⟨hk2, hr⟩, if_pos ⟨⟨by omega, by omega⟩, hr⟩]
    · rw [if_neg (by tauto)]
      by_cases hk1 : lo ≤ k ∧ k < lo + num
      · rw [if_pos ⟨hk1, hr⟩, if_pos ⟨⟨by omega, by omega⟩, hr⟩]
      · rw [if_neg (by tauto), if_neg (by rintro ⟨h, _⟩; omega)]
  · rw [if_neg (by tauto), if_neg (by tauto), if_neg (by tauto)]

theorem SliceDone.regionZero {n lo num lo2 num2 : Nat} {F : Mzed} {T T1 : Slice} (h1 : SliceDone n lo num F T T1)
    (hd : lo + num ≤ lo2) (hz : RegionZero lo2 num2 T) : RegionZero lo2 num2 T1 := by
  intro k hk i hi c hc
  rw [h1.bits, if_neg]
  · exact hz k hk i (by rw [← h1.nrows]; exact hi) c (by rw [← h1.ncols]; exact hc)
  · rintro ⟨hk', _⟩
    rw [List.mem_range'_1] at hk hk'
    omega

/-! ### `_mzed_slice2` -/

theorem slice2Val_bit (f : Nat → Word) (j2 k : Nat) (hk : k < 2) {p : Nat} (hp : p < 64) :
    (slice2Val f (2 * j2) (1 - k)).getLsbD p = rowBit f (2 * (64 * j2 + p) + k) := by
  have hn : OkW 2 := Or.inl rfl
  have e : slice2Val f (2 * j2) (1 - k) = (sliceTm 2 k 1).val 2 f (2 * j2) ||| (sliceTm 2 k 0).val 2 f (2 * j2) := by
    unfold slice2Val SliceTerm.val sliceTm sliceMask
    simp
  rw [e, BitVec.getLsbD_or, sliceTm_bit hn f _ hk (by norm_num) hp, sliceTm_bit hn f _ hk (by norm_num) hp, rowBit_block hn f j2 k p hk hp]
  have h2 : p / (64 / 2) = 0 ∨ p / (64 / 2) = 1 := by omega
  rcases h2 with h | h <;> rw [h] <;> simp

theorem slice2Half_bit (f : Nat → Word) (j2 k : Nat) (hk : k < 2) {p : Nat} (hp : p < 64) :
    (wordSlice 2 ((f (2 * j2 + 0) <<< (1 - k)) &&& xaaaaaaaa) >>> 32).getLsbD p = (decide (p < 32) && rowBit f (2 * (64 * j2 + p) + k)) := by
  have hn : OkW 2 := Or.inl rfl
  have e : wordSlice 2 ((f (2 * j2 + 0) <<< (1 - k)) &&& xaaaaaaaa) >>> 32 = (sliceTm 2 k 0).val 2 f (2 * j2) := rfl
  rw [e, sliceTm_bit hn f _ hk (by norm_num) hp, rowBit_block hn f j2 k p hk hp]
  norm_num
  by_cases h : p < 32
  · have h0 : p / 32 = 0 := by omega
    simp [h, h0]
  · have h0 : p / 32 = 1 := by omega
    simp [h, h0]

theorem slice2_bulk (f : Nat → Word) (t : Nat → Nat → Word) (k b p : Nat) (hp : p < 64) : ∀ nb,
    (forN (fun j2 t => setSl (setSl t 0 j2 (slice2Val f (2 * j2) 1)) 1 j2 (slice2Val f (2 * j2) 0)) nb t k b).getLsbD p =
      if b < nb ∧ k < 2 then rowBit f (2 * (64 * b + p) + k) else (t k b).getLsbD p
  | 0 => by simp [forN]
  | nb + 1 => by
    have ih := slice2_bulk f t k b p hp nb
    unfold forN
    by_cases hb : b = nb
    · subst hb
      by_cases hk : k < 2
      · rw [if_pos ⟨by omega, hk⟩, ← slice2Val_bit f b k hk hp]
        have : k = 0 ∨ k = 1 := by omega
        rcases this with rfl | rfl <;> simp [setSl]
      · rw [if_neg (by omega)] at ih
        rw [if_neg (by omega), ← ih]
        unfold setSl
        rw [if_neg (by omega), if_neg (by omega)]
    · have : setSl (setSl (forN (fun j2 t => setSl (setSl t 0 j2 (slice2Val f (2 * j2) 1)) 1 j2 (slice2Val f (2 * j2) 0)) nb t) 0 nb
          (slice2Val f (2 * nb) 1)) 1 nb (slice2Val f (2 * nb) 0) k b = forN (fun j2 t => setSl (setSl t 0 j2 (slice2Val f (2 * j2) 1)) 1 j2 (slice2Val f (2 * j2) 0)) nb t k b := by
        unfold setSl
        rw [if_neg (by tauto), if_neg (by tauto)]
      rw [this, ih]
      by_cases h : b < nb ∧ k < 2
      · rw [if_pos h, if_pos ⟨by omega, h.2⟩]
      · rw [if_neg h, if_neg (by omega)]

theorem masked_bit (t v mask : Word) {p : Nat} (hp : p < 64) :
    ((t &&& ~~~mask) ||| (v &&& mask)).getLsbD p = if mask.getLsbD p then v.getLsbD p else t.getLsbD p := by
  rw [BitVec.getLsbD_or, BitVec.getLsbD_and, BitVec.getLsbD_and, BitVec.getLsbD_not]
  by_cases h : mask.getLsbD p
  · rw [if_pos h, h]; simp
  · rw [if_neg h, (Bool.not_eq_true _).mp h]; simp [hp]

theorem slice2_row {nc : Nat} (hnc : 1 ≤ nc) (f : Nat → Word) (t : Nat → Nat → Word) :
    ∃ t', slice2Row ((2 * nc + 63) / 64) (leftBitmask (nc % 64)) f t = some t' ∧
      ∀ k c, rowBit (t' k) c = if k ∈ List.range' 0 2 ∧ c < nc then rowBit f (2 * c + k) else rowBit (t k) c := by
  have hnb : ((2 * nc + 63) / 64 - 1) / 2 = (nc - 1) / 64 := by omega
  have hB := fun k b p hp => slice2_bulk f t k b p hp ((nc - 1) / 64)
  unfold slice2Row
  simp only
  rw [hnb]
  generalize hT : forN (fun j2 t => setSl (setSl t 0 j2 (slice2Val f (2 * j2) 1)) 1 j2 (slice2Val f (2 * j2) 0)) ((nc - 1) / 64) t = T at *
  have hrest : (2 * nc + 63) / 64 - 2 * ((nc - 1) / 64) = 2 ∨ (2 * nc + 63) / 64 - 2 * ((nc - 1) / 64) = 1 := by omega
  -- what is left to check for the last block
  have fin : ∀ (t' : Nat → Nat → Word) (V : Nat → Word),
      (∀ k b, t' k b = if k < 2 ∧ b = (nc - 1) / 64 then ((T k b &&& ~~~(leftBitmask (nc % 64))) ||| (V k &&& leftBitmask (nc % 64))) else T k b) →
      (∀ k < 2, ∀ c < nc, c / 64 = (nc - 1) / 64 → (V k).getLsbD (c % 64) = rowBit f (2 * c + k)) →
      ∀ k c, rowBit (t' k) c = if k ∈ List.range' 0 2 ∧ c < nc then rowBit f (2 * c + k) else rowBit (t k) c := by
    intro t' V h1 h2 k c
    have hk2 : k ∈ List.range' 0 2 ↔ k < 2 := by rw [List.mem_range'_1]; omega
    simp only [hk2]
    show (t' k (c / 64)).getLsbD (c % 64) = _
    have hp : c % 64 < 64 := Nat.mod_lt _ (by norm_num)
    have hcd := Nat.div_add_mod c 64
    rw [h1]
    by_cases hk : k < 2 ∧ c / 64 = (nc - 1) / 64
    · rw [if_pos hk, masked_bit _ _ _ hp, getLsbD_leftBitmask _ _ (Nat.mod_lt _ (by norm_num)) hp, hB k _ _ hp,
        if_neg (by omega : ¬ (c / 64 < (nc - 1) / 64 ∧ k < 2))]
      by_cases hc : c < nc
      · rw [if_pos (⟨hk.1, hc⟩ : k < 2 ∧ c < nc), if_pos, h2 k hk.1 c hc hk.2]
        simp only [Bool.or_eq_true, decide_eq_true_eq]
        omega
      · rw [if_neg (by tauto : ¬ (k < 2 ∧ c < nc)), if_neg]
        · rfl
        · simp only [Bool.or_eq_true, decide_eq_true_eq]
          omega
    · rw [if_neg hk, hB k _ _ hp, hcd]
      by_cases hb : c / 64 < (nc - 1) / 64 ∧ k < 2
      · rw [if_pos hb, if_pos ⟨hb.2, by omega⟩]
      · rw [if_neg hb, if_neg (by omega)]
        rfl
  rcases hrest with hr | hr
  · rw [hr]
    refine ⟨_, rfl, fin _ (fun k => slice2Val f (2 * ((nc - 1) / 64)) (1 - k)) ?_ ?_⟩
    · intro k b
      unfold setSl
      have : k = 0 ∨ k = 1 ∨ 2 ≤ k := by omega
      rcases this with rfl | rfl | hk
      · by_cases hb : b = (nc - 1) / 64 <;> simp [hb]
      · by_cases hb : b = (nc - 1) / 64 <;> simp [hb]
      · rw [if_neg (by omega), if_neg (by omega), if_neg (by omega)]
    · intro k hk c hc hb
      rw [slice2Val_bit f _ k hk (Nat.mod_lt _ (by norm_num)), ← hb, Nat.div_add_mod]
  · rw [hr]
    refine ⟨_, rfl, fin _ (fun k => wordSlice 2 ((f (2 * ((nc - 1) / 64) + 0) <<< (1 - k)) &&& xaaaaaaaa) >>> 32) ?_ ?_⟩
    · intro k b
      unfold setSl
      have : k = 0 ∨ k = 1 ∨ 2 ≤ k := by omega
      rcases this with rfl | rfl | hk
      · by_cases hb : b = (nc - 1) / 64 <;> simp [hb]
      · by_cases hb : b = (nc - 1) / 64 <;> simp [hb]
      · rw [if_neg (by omega), if_neg (by omega), if_neg (by omega)]
    · intro k hk c hc hb
      rw [slice2Half_bit f _ k hk (Nat.mod_lt _ (by norm_num)), ← hb, Nat.div_add_mod, decide_eq_true (by omega), Bool.true_and]

/-! ### all degrees -/

theorem slice_all {d n : Nat} (T : Slice) (F : Mzed) (hd : F.ff.degree = d) (hT : T.depth = d) (h2 : 2 ≤ d) (h16 : d ≤ 16) (hn : n = degreeToW d)
    (hw : F.w = n) (hc : T.ncols = F.ncols) (hz : RegionZero 0 d T) (hnz : mzedIsZero F = false) (hpos : 1 ≤ T.ncols) :
    ∃ T', mzedSliceDispatch T F = some T' ∧ SliceDone n 0 d F T T' := by
  have o4 : OkW 4 := Or.inr (Or.inl rfl)
  have o8 : OkW 8 := Or.inr (Or.inr (Or.inl rfl))
  have o16 : OkW 16 := Or.inr (Or.inr (Or.inr rfl))
  unfold mzedSliceDispatch
  rw [hd]
  -- degree 16-bit helper
  have sixteen : ∀ num num2 a, 8 ≤ num → num + num2 ≤ 16 → RegionZero 0 (num + num2) T → F.w = 16 → ∀ T1, SliceDone 16 0 num F T T1 →
      ∃ T', (canonSlice 16 num num2 a).run 16 T1 F = some T' ∧ SliceDone 16 0 (num + num2) F T T' := by
    intro num num2 a h8 hle hz' hw' T1 h1
    have hz2 : RegionZero num num2 T1 := h1.regionZero (by omega) (fun k hk => hz' k (by rw [List.mem_range'_1] at *; omega))
    obtain ⟨T', e, h⟩ := slicePass_run o16 num num2 hle a T1 F hw' (by rw [h1.ncols]; exact hc) (by rw [h1.ncols]; exact hpos) hz2
    refine ⟨T', e, ?_⟩
    have := h1.chain (num2 := num2) (T2 := T') (by rw [Nat.zero_add]; exact h)
    exact this
  have lo16 : 9 ≤ d → F.w = 16 → ∃ T', (canonSlice 16 0 8 false).run 16 T F = some T' ∧ SliceDone 16 0 8 F T T' := fun h hw' =>
    slicePass_run o16 0 8 (by norm_num) false T F hw' hc hpos (fun k hk => hz k (by rw [List.mem_range'_1] at *; omega))
  have hcases : d = 2 ∨ d = 3 ∨ d = 4 ∨ d = 5 ∨ d = 6 ∨ d = 7 ∨ d = 8 ∨ d = 9 ∨ d = 10 ∨ d = 11 ∨ d = 12 ∨ d = 13 ∨ d = 14 ∨ d = 15 ∨ d = 16 := by omega
  rcases hcases with rfl | rfl | rfl | rfl | rfl | rfl | rfl | rfl | rfl | rfl | rfl | rfl | rfl | rfl | rfl
  · have hn' : n = 2 := hn
    subst hn'
    simp only [mzedSlice2]
    rw [if_neg (by omega), hnz, if_neg (by simp)]
    apply sliceDone_of_rows
    intro i hi
    have hwidth : F.width = (2 * T.ncols + 63) / 64 := by
      unfold Mzed.width Mzed.bitCols
      rw [hw, hc]
    rw [hwidth]
    exact slice2_row hpos (F.words i) (fun k b => T.x k i b)
  · have hn' : n = 4 := hn
    subst hn'
    simp only [mzedSlice4]
    rw [if_neg (by omega), hnz, if_neg (by simp), if_pos hT, slicePass4_3_eq]
    exact slicePass_run o4 0 3 (by norm_num) _ T F hw hc hpos hz
  · have hn' : n = 4 := hn
    subst hn'
    simp only [mzedSlice4]
    rw [if_neg (by omega), hnz, if_neg (by simp), if_neg (by omega), slicePass4_4_eq]
    exact slicePass_run o4 0 4 (by norm_num) _ T F hw hc hpos hz
  · have hn' : n = 8 := hn
    subst hn'
    simp only [mzedSlice8]
    rw [if_neg (by omega), hnz, if_neg (by simp), hT]
    simp only [slicePass8_5_eq]
    exact slicePass_run o8 0 5 (by norm_num) _ T F hw hc hpos hz
  · have hn' : n = 8 := hn
    subst hn'
    simp only [mzedSlice8]
    rw [if_neg (by omega), hnz, if_neg (by simp), hT]
    simp only [slicePass8_6_eq]
    exact slicePass_run o8 0 6 (by norm_num) _ T F hw hc hpos hz
  · have hn' : n = 8 := hn
    subst hn'
    simp only [mzedSlice8]
    rw [if_neg (by omega), hnz, if_neg (by simp), hT]
    simp only [slicePass8_7_eq]
    exact slicePass_run o8 0 7 (by norm_num) _ T F hw hc hpos hz
  · have hn' : n = 8 := hn
    subst hn'
    simp only [mzedSlice8]
    rw [if_neg (by omega), hnz, if_neg (by simp), hT]
    simp only [slicePass8_8_eq]
    exact slicePass_run o8 0 8 (by norm_num) _ T F hw hc hpos hz
  · have hn' : n = 16 := hn
    subst hn'
    obtain ⟨T1, e1, h1⟩ := lo16 (by norm_num) hw
    simp only [mzedSlice16]
    rw [if_neg (by omega), hnz, if_neg (by simp), slicePass16_lo_eq, e1, Option.bind_some, h1.depth, hT, if_neg (by norm_num)]
    simp only [slicePass16_9_eq]
    exact sixteen 8 1 false (by norm_num) (by norm_num) hz hw T1 h1
  · have hn' : n = 16 := hn
    subst hn'
    obtain ⟨T1, e1, h1⟩ := lo16 (by norm_num) hw
    simp only [mzedSlice16]
    rw [if_neg (by omega), hnz, if_neg (by simp), slicePass16_lo_eq, e1, Option.bind_some, h1.depth, hT, if_neg (by norm_num)]
    simp only [slicePass16_10_eq]
    exact sixteen 8 2 false (by norm_num) (by norm_num) hz hw T1 h1
  · have hn' : n = 16 := hn
    subst hn'
    obtain ⟨T1, e1, h1⟩ := lo16 (by norm_num) hw
    simp only [mzedSlice16]
    rw [if_neg (by omega), hnz, if_neg (by simp), slicePass16_lo_eq, e1, Option.bind_some, h1.depth, hT, if_neg (by norm_num)]
    simp only [slicePass16_11_eq]
    exact sixteen 8 3 false (by norm_num) (by norm_num) hz hw T1 h1
  · have hn' : n = 16 := hn
    subst hn'
    obtain ⟨T1, e1, h1⟩ := lo16 (by norm_num) hw
    obtain ⟨T2, e2, h2⟩ := sixteen 8 4 false (by norm_num) (by norm_num) hz hw T1 h1
    simp only [mzedSlice16]
    rw [if_neg (by omega), hnz, if_neg (by simp), slicePass16_lo_eq, e1, Option.bind_some, h1.depth, hT, if_pos (by norm_num),
      slicePass16_mid_eq, e2, Option.bind_some, h2.depth, hT]
    exact ⟨T2, rfl, h2⟩
  · have hn' : n = 16 := hn
    subst hn'
    obtain ⟨T1, e1, h1⟩ := lo16 (by norm_num) hw
    obtain ⟨T2, e2, h2⟩ := sixteen 8 4 false (by norm_num) (by norm_num) (fun k hk => hz k (by rw [List.mem_range'_1] at *; omega)) hw T1 h1
    simp only [mzedSlice16]
    rw [if_neg (by omega), hnz, if_neg (by simp), slicePass16_lo_eq, e1, Option.bind_some, h1.depth, hT, if_pos (by norm_num),
      slicePass16_mid_eq, e2, Option.bind_some, h2.depth, hT]
    simp only [slicePass16_13_eq]
    exact sixteen 12 1 false (by norm_num) (by norm_num) hz hw T2 h2
  · have hn' : n = 16 := hn
    subst hn'
    obtain ⟨T1, e1, h1⟩ := lo16 (by norm_num) hw
    obtain ⟨T2, e2, h2⟩ := sixteen 8 4 false (by norm_num) (by norm_num) (fun k hk => hz k (by rw [List.mem_range'_1] at *; omega)) hw T1 h1
    simp only [mzedSlice16]
    rw [if_neg (by omega), hnz, if_neg (by simp), slicePass16_lo_eq, e1, Option.bind_some, h1.depth, hT, if_pos (by norm_num),
      slicePass16_mid_eq, e2, Option.bind_some, h2.depth, hT]
    simp only [slicePass16_14_eq]
    exact sixteen 12 2 false (by norm_num) (by norm_num) hz hw T2 h2
  · have hn' : n = 16 := hn
    subst hn'
    obtain ⟨T1, e1, h1⟩ := lo16 (by norm_num) hw
    obtain ⟨T2, e2, h2⟩ := sixteen 8 4 false (by norm_num) (by norm_num) (fun k hk => hz k (by rw [List.mem_range'_1] at *; omega)) hw T1 h1
    simp only [mzedSlice16]
    rw [if_neg (by omega), hnz, if_neg (by simp), slicePass16_lo_eq, e1, Option.bind_some, h1.depth, hT, if_pos (by norm_num),
      slicePass16_mid_eq, e2, Option.bind_some, h2.depth, hT]
    simp only [slicePass16_15_eq]
    exact sixteen 12 3 false (by norm_num) (by norm_num) hz hw T2 h2
  · have hn' : n = 16 := hn
    subst hn'
    obtain ⟨T1, e1, h1⟩ := lo16 (by norm_num) hw
    obtain ⟨T2, e2, h2⟩ := sixteen 8 4 false (by norm_num) (by norm_num) (fun k hk => hz k (by rw [List.mem_range'_1] at *; omega)) hw T1 h1
    simp only [mzedSlice16]
    rw [if_neg (by omega), hnz, if_neg (by simp), slicePass16_lo_eq, e1, Option.bind_some, h1.depth, hT, if_pos (by norm_num),
      slicePass16_mid_eq, e2, Option.bind_some, h2.depth, hT]
    simp only [slicePass16_16_eq]
    exact sixteen 12 4 false (by norm_num) (by norm_num) hz hw T2 h2

end M4rie
