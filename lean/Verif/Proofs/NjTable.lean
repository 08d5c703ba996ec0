import Verif.Proofs.Echelon
import Verif.Model.NewtonJohn

/-! Newton-John tables. -/

namespace M4rie
open M4rie.Spec

/-- contract for M4RI's `m4ri_codebook[e]`: a Gray code on `e` bits -/
structure Codebook.Ok (cb : Codebook) (e : Nat) : Prop where
  zero : cb.ord 0 = 0
  lt : ∀ i, i < 2 ^ e → cb.ord i < 2 ^ e
  inj : ∀ i k, i < 2 ^ e → k < 2 ^ e → cb.ord i = cb.ord k → i = k
  inc : ∀ i, i + 1 < 2 ^ e → cb.inc i < e ∧ cb.ord (i + 1) = cb.ord i ^^^ 2 ^ cb.inc i

theorem Codebook.Ok.surj {cb : Codebook} {e : Nat} (h : cb.Ok e) (x : Nat) (hx : x < 2 ^ e) :
    ∃ i, i < 2 ^ e ∧ cb.ord i = x := by
  have := Finite.surjective_of_injective (f := fun i : Fin (2 ^ e) => (⟨cb.ord i, h.lt i i.2⟩ : Fin (2 ^ e)))
    (fun a b hab => Fin.ext (h.inj a b a.2 b.2 (by simpa using hab)))
  obtain ⟨i, hi⟩ := this ⟨x, hx⟩
  exact ⟨i, i.2, by simpa using hi⟩

/-! ### one row of the table -/

theorem foldl_setWord_zero (hb : Nat) : ∀ (l : List Nat) (row : Nat → Word) (b : Nat),
    l.foldl (fun row k => setWord row (hb - k) 0#64) row b = if b ∈ l.map (hb - ·) then 0#64 else row b := by
  intro l
  induction l with
  | nil => intro row b; simp
  | cons a l ih =>
    intro row b
    rw [List.foldl_cons, ih]
    simp only [List.map_cons, List.mem_cons, setWord]
    by_cases h1 : b ∈ l.map (hb - ·)
    · simp [h1]
    · by_cases h2 : b = hb - a <;> simp [h1, h2]

def stale (hb b : Nat) : Prop := b ∈ (staleOffsets hb).map (hb - ·)
instance (hb b : Nat) : Decidable (stale hb b) := by unfold stale; infer_instance

theorem staleOffsets_pos : ∀ hb, ∀ k ∈ staleOffsets hb, 0 < k ∧ k ≤ hb ∨ hb = 0 := by
  intro hb k hk
  match hb with
  | 0 => right; rfl
  | 1 | 2 | 3 | 4 | 5 | 6 | 7 => left; simp only [staleOffsets, List.mem_cons, List.not_mem_nil, or_false] at hk; omega
  | n + 8 => left; simp only [staleOffsets, List.mem_cons, List.not_mem_nil, or_false] at hk; omega

theorem stale_lt {hb b : Nat} (h : stale hb b) : b < hb := by
  unfold stale at h
  rw [List.mem_map] at h
  obtain ⟨k, hk, rfl⟩ := h
  have h1 := staleOffsets_pos hb k hk
  rcases h1 with ⟨h1, h2⟩ | h1
  · omega
  · subst h1; simp [staleOffsets] at hk

theorem stale_pred {hb : Nat} (h : 0 < hb) : stale hb (hb - 1) := by
  unfold stale
  rw [List.mem_map]
  refine ⟨1, ?_, rfl⟩
  match hb with
  | 1 | 2 | 3 | 4 | 5 | 6 | 7 => simp [staleOffsets]
  | n + 8 => simp [staleOffsets]

theorem setWord_loop_off (f : Nat → Word) (o : Nat) : ∀ n (c : Nat → Word) i,
    forN (fun j c => setWord c (o + j) (f (o + j))) n c i = if o ≤ i ∧ i < o + n then f i else c i := by
  intro n
  induction n with
  | zero => intro c i; simp [forN]
  | succ n ih =>
    intro c i
    rw [forN, setWord, ih]
    by_cases h : i = o + n
    · subst h; simp
    · have : (o ≤ i ∧ i < o + n) ↔ (o ≤ i ∧ i < o + (n + 1)) := by omega
      simp [h, this]

theorem njRow_word (hb W : Nat) (hi : Word) (m t1 ti : Nat → Word) (h : hb < W) (b : Nat) :
    njRow hb W hi m t1 ti b = if b = W - 1 then (m b ^^^ t1 b) &&& hi else if hb ≤ b ∧ b < W - 1 then m b ^^^ t1 b
      else if stale hb b then 0#64 else ti b := by
  have h8 : 8 * ((W - hb - 1) / 8) ≤ W - hb - 1 := Nat.mul_div_le _ _
  have hlast : hb + (W - hb - 1) = W - 1 := by omega
  unfold njRow
  simp only [hlast]
  generalize 8 * ((W - hb - 1) / 8) = n8 at h8
  simp only [setWord]
  by_cases h1 : b = W - 1
  · subst h1; simp
  · rw [if_neg h1, if_neg h1]
    have e1 := setWord_loop_off (fun b => m b ^^^ t1 b) (hb + n8) (W - hb - n8 - 1)
      (forN (fun j row => setWord row (hb + j) (m (hb + j) ^^^ t1 (hb + j))) n8
        ((staleOffsets hb).foldl (fun row k => setWord row (hb - k) 0#64) ti)) b
    have e2 := setWord_loop_off (fun b => m b ^^^ t1 b) hb n8
        ((staleOffsets hb).foldl (fun row k => setWord row (hb - k) 0#64) ti) b
    rw [e1, e2, foldl_setWord_zero hb (staleOffsets hb) ti b]
    by_cases h2 : hb ≤ b ∧ b < W - 1
    · rw [if_pos h2]
      by_cases h3 : hb + n8 ≤ b
      · rw [if_pos (by omega)]
      · rw [if_neg (by omega), if_pos (by omega)]
    · rw [if_neg h2, if_neg (by omega), if_neg (by omega)]
      rfl

variable {ff : Gf2e} [IsField ff]

/-- `A` with row `i` replaced -/
abbrev Mzed.withRow (A : Mzed) (i : Nat) (row : Nat → Word) : Mzed := { A with words := setRow A.words i row }

theorem setRow_pack_entry (X : Mat ff) (i : Nat) (row : Nat → Word) (a j : Nat) :
    entryOf (degreeToW ff.degree) (setRow X.pack.words i row) a j =
      if a = i then laneVal (degreeToW ff.degree) (row (j / (64 / degreeToW ff.degree))) (j % (64 / degreeToW ff.degree))
      else (X.e a j).1 := by
  by_cases h : a = i
  · subst h
    rw [if_pos rfl]
    unfold entryOf setRow
    simp
  · rw [if_neg h, ← (pack_rep X).entry]
    unfold entryOf setRow
    simp [h]

theorem pack_lane (X : Mat ff) (i j : Nat) :
    laneVal (degreeToW ff.degree) (X.pack.words i (j / (64 / degreeToW ff.degree))) (j % (64 / degreeToW ff.degree)) = (X.e i j).1 := by
  rw [← (pack_rep X).entry]; rfl

/-- elements `j` from the first cleared word on -/
def njLo (ff : Gf2e) (c : Nat) : Nat := (64 / degreeToW ff.degree) * (c / (64 / degreeToW ff.degree) - 1)

theorem njLo_le (c : Nat) : njLo ff c ≤ c := by
  unfold njLo
  calc _ ≤ (64 / degreeToW ff.degree) * (c / (64 / degreeToW ff.degree)) := Nat.mul_le_mul_left _ (Nat.sub_le _ _)
    _ ≤ c := Nat.mul_div_le _ _

/-- one row of the table, on matrices -/
theorem njRow_pack (XM XT : Mat ff) (c n i q p : Nat) (hc : c < n) (hM0 : ∀ a j, n ≤ j → XM.e a j = 0)
    (hT0 : ∀ a j, n ≤ j → XT.e a j = 0) :
    ∃ XT' : Mat ff, XT.pack.withRow i
        (njRow (degreeToW ff.degree * c / 64) ((degreeToW ff.degree * n + 63) / 64) (leftBitmask (degreeToW ff.degree * n % 64))
          (XM.pack.words q) (XT.pack.words p) (XT.pack.words i)) = XT'.pack ∧
      XT'.nrows = XT.nrows ∧ XT'.ncols = XT.ncols ∧ XT'.fid = XT.fid ∧
      (∀ a j, a ≠ i → XT'.e a j = XT.e a j) ∧ (∀ a j, n ≤ j → XT'.e a j = 0) ∧
      (∀ j, c / (64 / degreeToW ff.degree) ≤ j / (64 / degreeToW ff.degree) → XT'.e i j = XM.e q j + XT.e p j) ∧
      (∀ j, njLo ff c ≤ j → j / (64 / degreeToW ff.degree) < c / (64 / degreeToW ff.degree) → XT'.e i j = 0) := by
  have hw := okW_ff (ff := ff)
  have hl := hw.le
  have hL := hw.lpos
  have hwid := start_lt_width hw c n hc
  let e' : Nat → Nat → Elem ff := fun a j => if a = i then
      (if n ≤ j then 0 else if c / (64 / degreeToW ff.degree) ≤ j / (64 / degreeToW ff.degree) then XM.e q j + XT.e p j
        else if stale (c / (64 / degreeToW ff.degree)) (j / (64 / degreeToW ff.degree)) then 0 else XT.e i j) else XT.e a j
  have hrep : Rep (XT.pack.withRow i
        (njRow (degreeToW ff.degree * c / 64) ((degreeToW ff.degree * n + 63) / 64) (leftBitmask (degreeToW ff.degree * n % 64))
          (XM.pack.words q) (XT.pack.words p) (XT.pack.words i))) e' := by
    refine (pack_rep XT).setWords _ fun a j => ?_
    rw [pack_w, setRow_pack_entry]
    show _ = (e' a j).1
    simp only [e']
    by_cases ha : a = i
    · rw [if_pos ha, if_pos ha, hw.block, hw.width, njRow_word _ _ _ _ _ _ hwid]
      have hk : j % (64 / degreeToW ff.degree) < 64 / degreeToW ff.degree := Nat.mod_lt _ hL
      have hrng := in_range_iff hw c n (j / (64 / degreeToW ff.degree)) _ hk hc
      have hE : ∀ t, t < degreeToW ff.degree → (leftBitmask (degreeToW ff.degree * n % 64)).getLsbD (j % (64 / degreeToW ff.degree) * degreeToW ff.degree + t) = decide (n % (64 / degreeToW ff.degree) = 0 ∨ j % (64 / degreeToW ff.degree) < n % (64 / degreeToW ff.degree)) :=
        fun t ht => end_lane hw n _ t hk ht
      have hdm := Nat.div_add_mod j (64 / degreeToW ff.degree)
      rw [Nat.mul_comm] at hdm
      have hr0 := in_range_iff hw 0 n (j / (64 / degreeToW ff.degree)) _ hk (by omega)
      rw [hdm] at hr0
      have h0 : 0 / (64 / degreeToW ff.degree) < j / (64 / degreeToW ff.degree) ∨ 0 / (64 / degreeToW ff.degree) = j / (64 / degreeToW ff.degree) ∧ 0 % (64 / degreeToW ff.degree) ≤ j % (64 / degreeToW ff.degree) := by
        rw [Nat.zero_div, Nat.zero_mod]; exact (Nat.eq_zero_or_pos _).elim (fun h => Or.inr ⟨h.symm, Nat.zero_le _⟩) Or.inl
      have hjn : j < n ↔ _ := ⟨fun h => (hr0.1 ⟨Nat.zero_le _, h⟩).2, fun h => (hr0.2 ⟨h0, h⟩).2⟩
      have lx : laneVal (degreeToW ff.degree) (XM.pack.words q (j / (64 / degreeToW ff.degree)) ^^^ XT.pack.words p (j / (64 / degreeToW ff.degree))) (j % (64 / degreeToW ff.degree)) = (XM.e q j + XT.e p j).1 := by
        rw [lane_xor _ _ _ _ (by omega), pack_lane, pack_lane]; rfl
      by_cases h1 : j / (64 / degreeToW ff.degree) = (n + (64 / degreeToW ff.degree - 1)) / (64 / degreeToW ff.degree) - 1
      · rw [if_pos h1, lane_and_mask _ _ _ _ (by omega) _ hE, lx]
        by_cases h2 : n % (64 / degreeToW ff.degree) = 0 ∨ j % (64 / degreeToW ff.degree) < n % (64 / degreeToW ff.degree)
        · have : j < n := hjn.2 (Or.inr ⟨h1, h2⟩)
          rw [if_neg (by omega : ¬ n ≤ j), if_pos (by rw [h1]; exact Nat.le_sub_one_of_lt hwid : c / (64 / degreeToW ff.degree) ≤ j / (64 / degreeToW ff.degree)),
            if_pos (decide_eq_true h2)]
        · have : ¬ j < n := fun h => by
            rcases hjn.1 h with h3 | h3
            · omega
            · exact h2 h3.2
          rw [if_pos (by omega : n ≤ j), if_neg (by simpa using h2)]; rfl
      · rw [if_neg h1]
        by_cases h2 : c / (64 / degreeToW ff.degree) ≤ j / (64 / degreeToW ff.degree) ∧ j / (64 / degreeToW ff.degree) < (n + (64 / degreeToW ff.degree - 1)) / (64 / degreeToW ff.degree) - 1
        · have : j < n := hjn.2 (Or.inl h2.2)
          rw [if_pos h2, lx, if_neg (by omega : ¬ n ≤ j), if_pos h2.1]
        · rw [if_neg h2]
          by_cases h3 : j < n
          · have h4 : ¬ c / (64 / degreeToW ff.degree) ≤ j / (64 / degreeToW ff.degree) := by
              intro h4
              rcases hjn.1 h3 with h5 | h5
              · exact h2 ⟨h4, h5⟩
              · exact h1 h5.1
            rw [if_neg (by omega : ¬ n ≤ j), if_neg h4]
            split_ifs
            · rw [lane_zero]; rfl
            · exact pack_lane XT i j
          · rw [if_pos (by omega : n ≤ j)]
            split_ifs
            · rw [lane_zero]; rfl
            · rw [pack_lane, hT0 i j (by omega)]
    · rw [if_neg ha, if_neg ha]
  refine ⟨⟨XT.nrows, XT.ncols, XT.fid, e'⟩, hrep.eq_pack (B := XT.pack) ⟨rfl, rfl, rfl⟩, rfl, rfl, rfl, ?_, ?_, ?_, ?_⟩
  · intro a j ha; simp only [e', if_neg ha]
  · intro a j hj
    simp only [e', if_pos hj, hT0 a j hj, ite_self]
  · intro j hj
    simp only [e', if_true]
    by_cases hn : n ≤ j
    · rw [if_pos hn, hM0 _ _ hn, hT0 _ _ hn, add_zero]
    · rw [if_neg hn, if_pos hj]
  · intro j hj1 hj2
    simp only [e', if_true]
    have h1 : j / (64 / degreeToW ff.degree) = c / (64 / degreeToW ff.degree) - 1 := by
      have : c / (64 / degreeToW ff.degree) - 1 ≤ j / (64 / degreeToW ff.degree) := by
        rw [Nat.le_div_iff_mul_le hL, Nat.mul_comm]; exact hj1
      omega
    have h2 := stale_pred (hb := c / (64 / degreeToW ff.degree)) (by omega)
    rw [← h1] at h2
    rw [if_neg (by omega : ¬ c / (64 / degreeToW ff.degree) ≤ j / (64 / degreeToW ff.degree)), if_pos h2, ite_self]

/-! ### the whole table -/

/-- a table structure for `n` columns, as created by `njt_mzed_init` or left by earlier table constructions -/
structure NjtOk (ff : Gf2e) [IsField ff] (n : Nat) (T : Njt) (XM XT : Mat ff) : Prop where
  Meq : T.M = XM.pack
  Teq : T.T = XT.pack
  Mrows : XM.nrows = ff.degree
  Mcols : XM.ncols = n
  Trows : XT.nrows = 2 ^ ff.degree
  Tcols : XT.ncols = n
  M0 : ∀ i j, n ≤ j → XM.e i j = 0
  T0 : ∀ i j, n ≤ j → XT.e i j = 0
  row0 : ∀ j, XT.e 0 j = 0
  L0 : T.L 0 = 0

theorem njtInit_ok (fid n : Nat) : ∃ XM XT : Mat ff, NjtOk ff n (njtInit ff fid n) XM XT :=
  ⟨_, _, init_pack _ _ _, init_pack _ _ _, rfl, rfl, rfl, rfl, fun _ _ _ => rfl, fun _ _ _ => rfl, fun _ => rfl, rfl⟩

/-- the table holds the multiples of row `r` of `X` from column `c` on, correct from column `njLo` on -/
structure TableFor (T : Njt) (X : Mat ff) (r c : Nat) (XT : Mat ff) : Prop where
  lt : ∀ x : Elem ff, T.L x.1.toNat < 2 ^ ff.degree
  row : ∀ (x : Elem ff) j, njLo ff c ≤ j → XT.e (T.L x.1.toNat) j = if c ≤ j ∧ j < X.ncols then x * X.e r j else 0

def Mat.clear (X : Mat ff) : Mat ff :=
  { X with e := fun i j => if i < X.nrows ∧ j < X.ncols then 0 else X.e i j }

theorem clear_pack (X : Mat ff) :
    { X.pack with words := mzdClear X.pack.nrows X.pack.bitCols X.pack.words } = X.clear.pack :=
  (pack_rep X).clear.eq_pack ⟨rfl, rfl, rfl⟩

/-- the element `2^i` -/
def elemPow (ff : Gf2e) [IsField ff] (i : Nat) (h : i < ff.degree) : Elem ff :=
  ⟨twoPow i, by
    have h16 := (Fact.out : FFOK ff).min.e16
    unfold twoPow
    rw [BitVec.toNat_shiftLeft, BitVec.toNat_ofNat, Nat.one_mod_eq_one.2 (by norm_num), Nat.shiftLeft_eq, one_mul,
      Nat.mod_eq_of_lt (Nat.pow_lt_pow_right (by norm_num) (by omega))]
    exact Nat.pow_lt_pow_right (by norm_num) h⟩

theorem twoPow_toNat (i : Nat) (h : i < 64) : (twoPow i).toNat = 2 ^ i := by
  unfold twoPow
  rw [BitVec.toNat_shiftLeft, BitVec.toNat_ofNat, Nat.one_mod_eq_one.2 (by norm_num), Nat.shiftLeft_eq, one_mul,
      Nat.mod_eq_of_lt (Nat.pow_lt_pow_right (by norm_num) (by omega))]

theorem njMLoop (X XM : Mat ff) (r c : Nat) (hc : c < X.ncols) (hMc : XM.ncols = X.ncols) (k : Nat) (hk : k ≤ ff.degree) :
    ∃ XM' : Mat ff, forN (fun i M => mzedAddMultipleOfRow M i X.pack r (twoPow i) c) k XM.pack = XM'.pack ∧
      XM'.nrows = XM.nrows ∧ XM'.ncols = XM.ncols ∧ XM'.fid = XM.fid ∧
      ∀ i j, XM'.e i j = if h : i < k then (if c ≤ j ∧ j < X.ncols then XM.e i j + elemPow ff i (by omega) * X.e r j else XM.e i j)
        else XM.e i j := by
  induction k with
  | zero => exact ⟨XM, rfl, rfl, rfl, rfl, fun i j => by simp⟩
  | succ k ih =>
    obtain ⟨Y, h1, h2, h3, h4, h5⟩ := ih (by omega)
    refine ⟨Y.addMul k X r (elemPow ff k (by omega)) c, ?_, h2, h3, h4, ?_⟩
    · rw [forN, h1, ← addMul_pack _ _ _ _ _ (by omega)]; rfl
    · intro i j
      unfold Mat.addMul
      simp only [h3, hMc]
      rw [h5]
      by_cases hik : i = k
      · subst hik
        simp
      · by_cases hlt : i < k
        · simp [hik, hlt, show i < k + 1 by omega]
        · simp [hik, hlt, show ¬ i < k + 1 by omega]

theorem mzedMakeTable_spec {cb : Codebook} (hcb : cb.Ok ff.degree) {T : Njt} {XM XT : Mat ff} (X : Mat ff) (r c : Nat)
    (hT : NjtOk ff X.ncols T XM XT) (hc : c < X.ncols) :
    ∃ XM' XT' : Mat ff, NjtOk ff X.ncols (mzedMakeTable cb T X.pack r c) XM' XT' ∧
      TableFor (mzedMakeTable cb T X.pack r c) X r c XT' ∧ XM'.fid = XM.fid ∧ XT'.fid = XT.fid := by
  have h16 := (Fact.out : FFOK ff).min.e16
  have hw := okW_ff (ff := ff)
  have hL := hw.lpos
  unfold mzedMakeTable
  simp only [hT.Meq, hT.Teq]
  rw [clear_pack]
  simp only [pack_ff, pack_w, pack_nrows, hT.Trows]
  obtain ⟨XM', hM1, hM2, hM3, hM4, hM5⟩ := njMLoop X XM.clear r c hc hT.Mcols ff.degree le_rfl
  rw [hM1]
  have hMcols : XM'.ncols = X.ncols := hM3.trans hT.Mcols
  have hMrow : ∀ (i : Nat) (hi : i < ff.degree) j, XM'.e i j = if c ≤ j ∧ j < X.ncols then elemPow ff i hi * X.e r j else 0 := by
    intro i hi j
    have hz : XM.clear.e i j = 0 := by
      unfold Mat.clear
      simp only [hT.Mrows, hT.Mcols, hi, true_and]
      split_ifs with hj
      · rfl
      · exact hT.M0 _ _ (by omega)
    rw [hM5, dif_pos hi, hz, zero_add]
  have hM0 : ∀ i j, X.ncols ≤ j → XM'.e i j = 0 := by
    intro i j hj
    have hz : XM.clear.e i j = 0 := by
      unfold Mat.clear
      simp only [hT.Mrows, hT.Mcols]
      rw [if_neg (by omega), hT.M0 _ _ hj]
    rw [hM5]
    split_ifs <;> first | omega | exact hz
  have loop := forN_inv (fun k (s : (Nat → Nat) × Mzed) => ∃ Y : Mat ff, s.2 = Y.pack ∧ Y.nrows = XT.nrows ∧ Y.ncols = XT.ncols ∧ Y.fid = XT.fid ∧
      (∀ j, Y.e 0 j = 0) ∧ (∀ i j, X.ncols ≤ j → Y.e i j = 0) ∧ (∀ i, i ≤ k → s.1 (cb.ord i) = i) ∧
      (∀ i, i ≤ k → ∀ x : Elem ff, x.1.toNat = cb.ord i → ∀ j, njLo ff c ≤ j →
        Y.e i j = if c ≤ j ∧ j < X.ncols then x * X.e r j else 0))
    (njStep cb XM'.pack (degreeToW ff.degree * c / 64)) (T.L, XT.pack) (2 ^ ff.degree - 1) (by
      refine ⟨XT, rfl, rfl, rfl, rfl, hT.row0, hT.T0, ?_, ?_⟩
      · intro i hi
        have : i = 0 := by omega
        subst this
        simp only [hcb.zero, hT.L0]
      · intro i hi x hx j hj
        have : i = 0 := by omega
        subst this
        rw [hcb.zero] at hx
        have hx0 : x = 0 := by
          apply Elem.ext'
          apply BitVec.eq_of_toNat_eq
          rw [hx]; rfl
        rw [hT.row0, hx0, zero_mul, ite_self]) (by
      rintro k ⟨L, s⟩ hk ⟨Y, hs, hr, hcl, hfid, h0, hn, hLk, hrow⟩
      simp only at hs hLk
      subst hs
      have hk1 : k + 1 < 2 ^ ff.degree := by omega
      obtain ⟨hinc, hord⟩ := hcb.inc k hk1
      obtain ⟨Y', g1, g2, g3, g4, g5, g6, g7, g8⟩ := njRow_pack XM' Y c X.ncols (k + 1) (cb.inc k) k hc hM0 hn
      refine ⟨Y', ?_, g2.trans hr, g3.trans hcl, g4.trans hfid, ?_, g6, ?_, ?_⟩
      · rw [← g1]
        unfold njStep Mzed.withRow Mzed.width Mzed.highBitmask Mzed.bitCols
        simp only [pack_w, pack_ncols, hMcols, Nat.add_sub_cancel]
      · intro j; rw [g5 _ _ (by omega), h0]
      · intro i hi
        unfold njStep
        simp only
        by_cases hik : i = k + 1
        · rw [hik, if_pos rfl]
        · rw [if_neg (fun h => hik (hcb.inj _ _ (by omega) hk1 h)), hLk i (by omega)]
      · intro i hi x hx j hj
        by_cases hik : i = k + 1
        · subst hik
          by_cases hb : c / (64 / degreeToW ff.degree) ≤ j / (64 / degreeToW ff.degree)
          · rw [g7 j hb, hMrow _ hinc]
            have hylt : cb.ord k < 2 ^ ff.degree := hcb.lt k (by omega)
            have hylt64 : cb.ord k < 2 ^ 64 := lt_of_lt_of_le hylt (Nat.pow_le_pow_right (by norm_num) (by omega))
            let y : Elem ff := ⟨BitVec.ofNat 64 (cb.ord k), by rw [BitVec.toNat_ofNat, Nat.mod_eq_of_lt hylt64]; exact hylt⟩
            have hy : y.1.toNat = cb.ord k := by
              show (BitVec.ofNat 64 (cb.ord k)).toNat = _
              rw [BitVec.toNat_ofNat, Nat.mod_eq_of_lt hylt64]
            rw [hrow k (by omega) y hy j hj]
            have hxy : x = elemPow ff (cb.inc k) hinc + y := by
              apply Elem.ext'
              apply BitVec.eq_of_toNat_eq
              rw [hx, hord]
              show _ = (twoPow (cb.inc k) ^^^ y.1).toNat
              rw [BitVec.toNat_xor, hy, twoPow_toNat _ (by omega), Nat.xor_comm]
            rw [hxy]
            split_ifs
            · ring
            · rw [add_zero]
          · rw [g8 j hj (by omega)]
            have : ¬ c ≤ j := fun h => hb (Nat.div_le_div_right h)
            rw [if_neg (by omega)]
        · rw [g5 _ _ hik]; exact hrow i (by omega) x hx j hj)
  obtain ⟨Y, hY, hr, hcl, hfid, h0, hn, hLk, hrow⟩ := loop
  have hfin : ∀ x : Elem ff, ∃ i, i < 2 ^ ff.degree ∧ cb.ord i = x.1.toNat := fun x => hcb.surj _ x.2
  refine ⟨XM', Y, ⟨rfl, hY, hM2.trans hT.Mrows, hMcols, hr.trans hT.Trows, hcl.trans hT.Tcols, hM0, hn, h0, ?_⟩, ⟨?_, ?_⟩, hM4, hfid⟩
  · have := hLk 0 (Nat.zero_le _)
    rw [hcb.zero] at this
    exact this
  · intro x
    obtain ⟨i, h1, h2⟩ := hfin x
    have := hLk i (by omega)
    rw [h2] at this
    simp only
    rw [this]; exact h1
  · intro x j hj
    obtain ⟨i, h1, h2⟩ := hfin x
    have := hLk i (by omega)
    rw [h2] at this
    simp only
    rw [this]; exact hrow i (by omega) x h2.symm j hj

end M4rie
