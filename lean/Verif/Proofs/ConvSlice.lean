import Verif.Proofs.ConvBits
import Verif.Proofs.Lane

/-! The slicing passes: every table of the source is the canonical one, and the canonical pass moves bit
`n*c + k` of the packed row to bit `c` of slice `k`. -/

namespace M4rie
open M4rie.Spec

def sliceTm (n k i : Nat) : SliceTerm := ⟨i, n - 1 - k, 64 - 64 / n * (i + 1)⟩

def canonSlice (n lo num : Nat) (asg : Bool) : SlicePass where
  bulk := (List.range' lo num).map fun k => (k, asg, (List.range n).map (sliceTm n k))
  cases := (List.range n).reverse.map fun c => (c + 1, (List.range' lo num).map fun k => (k, sliceTm n k c))
  finals := List.range' lo num

theorem slicePass4_3_eq : slicePass4_3 = canonSlice 4 0 3 true := by rfl
theorem slicePass4_4_eq : slicePass4_4 = canonSlice 4 0 4 true := by rfl
theorem slicePass8_5_eq : slicePass8_5 = canonSlice 8 0 5 false := by rfl
theorem slicePass8_6_eq : slicePass8_6 = canonSlice 8 0 6 false := by rfl
theorem slicePass8_7_eq : slicePass8_7 = canonSlice 8 0 7 false := by rfl
theorem slicePass8_8_eq : slicePass8_8 = canonSlice 8 0 8 false := by rfl
theorem slicePass16_lo_eq : slicePass16_lo = canonSlice 16 0 8 false := by rfl
theorem slicePass16_mid_eq : slicePass16_mid = canonSlice 16 8 4 false := by rfl
theorem slicePass16_16_eq : slicePass16_16 = canonSlice 16 12 4 false := by rfl
theorem slicePass16_15_eq : slicePass16_15 = canonSlice 16 12 3 false := by rfl
theorem slicePass16_14_eq : slicePass16_14 = canonSlice 16 12 2 false := by rfl
theorem slicePass16_13_eq : slicePass16_13 = canonSlice 16 12 1 false := by rfl
theorem slicePass16_11_eq : slicePass16_11 = canonSlice 16 8 3 false := by rfl
theorem slicePass16_10_eq : slicePass16_10 = canonSlice 16 8 2 false := by rfl
theorem slicePass16_9_eq : slicePass16_9 = canonSlice 16 8 1 false := by rfl

/-- bit `q` of a row -/
def rowBit (f : Nat → Word) (q : Nat) : Bool := (f (q / 64)).getLsbD (q % 64)

theorem sliceTm_bit {n : Nat} (hn : OkW n) (f : Nat → Word) (j : Nat) {k i : Nat} (hk : k < n) (hi : i < n) {p : Nat} (hp : p < 64) :
    ((sliceTm n k i).val n f j).getLsbD p = (decide (p / (64 / n) = i) && (f (j + i)).getLsbD (n * (p % (64 / n)) + k)) := by
  unfold SliceTerm.val sliceTm
  simp only [BitVec.getLsbD_ushiftRight]
  have hm := hn.mul
  have hlp := hn.lpos
  have hmi : 64 / n * (i + 1) ≤ 64 := by
    calc 64 / n * (i + 1) ≤ 64 / n * n := Nat.mul_le_mul_left _ hi
      _ = 64 := hm
  generalize hm' : 64 / n = m at *
  have hdm := Nat.div_add_mod p m
  have hml := Nat.mod_lt p hlp
  have e1 : m * (i + 1) = m * i + m := Nat.mul_succ m i
  by_cases hd : p / m = i
  · rw [hd] at hdm
    rw [decide_eq_true hd, Bool.true_and, wordSlice_bit hn _ (by omega), hm', decide_eq_true (by omega), Bool.true_and,
      BitVec.getLsbD_shiftLeft]
    have e2 : 64 - m * (i + 1) + p - (64 - m) = p % m := by omega
    rw [e2]
    have hlt : n * (p % m) + n ≤ 64 := by
      calc n * (p % m) + n = n * (p % m + 1) := by ring
        _ ≤ n * m := Nat.mul_le_mul_left _ hml
        _ = 64 := by rw [Nat.mul_comm]; exact hm
    have e3 : n * (p % m) + (n - 1) - (n - 1 - k) = n * (p % m) + k := by omega
    have h4 : n * (p % m) + (n - 1) < 64 := by omega
    have h5 : ¬ n * (p % m) + (n - 1) < n - 1 - k := by omega
    rw [decide_eq_true h4, decide_eq_false h5, e3]
    simp
  · rw [decide_eq_false hd, Bool.false_and]
    by_cases hge : 64 ≤ 64 - m * (i + 1) + p
    · exact BitVec.getLsbD_of_ge _ _ hge
    · rw [wordSlice_bit hn _ (by omega), hm', decide_eq_false, Bool.false_and]
      intro hle
      apply hd
      have h1 : m * i ≤ p := by omega
      have h2 : p < m * (i + 1) := by omega
      rw [Nat.div_eq_iff hlp]
      constructor
      · rw [Nat.mul_comm]; exact h1
      · have : i * m = m * i := Nat.mul_comm _ _
        omega

theorem rowBit_block {n : Nat} (hn : OkW n) (f : Nat → Word) (j2 k p : Nat) (hk : k < n) (hp : p < 64) :
    rowBit f (n * (64 * j2 + p) + k) = (f (n * j2 + p / (64 / n))).getLsbD (n * (p % (64 / n)) + k) := by
  have hm := hn.mul
  have hlp := hn.lpos
  generalize hm' : 64 / n = m at *
  have hdm := Nat.div_add_mod p m
  have hml := Nat.mod_lt p hlp
  have hlt : n * (p % m) + n ≤ 64 := by
    calc n * (p % m) + n = n * (p % m + 1) := by ring
      _ ≤ n * m := Nat.mul_le_mul_left _ hml
      _ = 64 := by rw [Nat.mul_comm]; exact hm
  have e : n * (64 * j2 + p) + k = 64 * (n * j2 + p / m) + (n * (p % m) + k) := by
    calc n * (64 * j2 + p) + k = n * (64 * j2 + (m * (p / m) + p % m)) + k := by rw [hdm]
      _ = 64 * (n * j2) + (m * n) * (p / m) + (n * (p % m) + k) := by ring
      _ = _ := by rw [hm]; ring
  unfold rowBit
  have hlt' : n * (p % m) + k < 64 := by omega
  rw [e, Nat.mul_add_div (by norm_num), Nat.mul_add_mod, Nat.div_eq_of_lt hlt', Nat.mod_eq_of_lt hlt', Nat.add_zero]

/-- the value of a bulk statement -/
theorem sliceBulk_bit {n : Nat} (hn : OkW n) (f : Nat → Word) (j2 : Nat) {k : Nat} (hk : k < n) {p : Nat} (hp : p < 64) :
    (orAll (((List.range n).map (sliceTm n k)).map (SliceTerm.val n f (n * j2)))).getLsbD p =
      rowBit f (n * (64 * j2 + p) + k) := by
  rw [getLsbD_orAll, List.map_map, List.any_map, rowBit_block hn f j2 k p hk hp]
  have hi : p / (64 / n) < n := by
    rw [Nat.div_lt_iff_lt_mul hn.lpos, Nat.mul_comm, hn.mul]; exact hp
  rw [Bool.eq_iff_iff, List.any_eq_true]
  constructor
  · rintro ⟨i, hi', h⟩
    simp only [Function.comp] at h
    rw [sliceTm_bit hn f _ hk (List.mem_range.mp hi') hp] at h
    simp only [Bool.and_eq_true, decide_eq_true_eq] at h
    obtain ⟨rfl, h⟩ := h
    exact h
  · intro h
    refine ⟨p / (64 / n), List.mem_range.mpr hi, ?_⟩
    simp only [Function.comp]
    rw [sliceTm_bit hn f _ hk hi hp, h]
    simp

theorem foldl_setSl (b : Nat) (g : Nat → Word → Word) : ∀ (l : List Nat) (_ : l.Nodup) (t : Nat → Nat → Word) (k' b' : Nat),
    (l.foldl (fun t k => setSl t k b (g k (t k b))) t) k' b' = if b' = b ∧ k' ∈ l then g k' (t k' b) else t k' b'
  | [], _, t, k', b' => by simp
  | k :: l, hnd, t, k', b' => by
    rw [List.foldl_cons, foldl_setSl b g l (List.nodup_cons.mp hnd).2]
    have hk := (List.nodup_cons.mp hnd).1
    by_cases hb : b' = b
    · subst hb
      by_cases hm : k' ∈ l
      · have hne : k' ≠ k := fun h => hk (h ▸ hm)
        rw [if_pos ⟨rfl, hm⟩, if_pos ⟨rfl, List.mem_cons_of_mem _ hm⟩]
        unfold setSl
        rw [if_neg (by tauto)]
      · rw [if_neg (by tauto)]
        by_cases he : k' = k
        · subst he
          rw [if_pos ⟨rfl, List.mem_cons_self⟩]
          unfold setSl
          rw [if_pos ⟨rfl, rfl⟩]
        · rw [if_neg (by simp [he, hm])]
          unfold setSl
          rw [if_neg (by tauto)]
    · rw [if_neg (by tauto), if_neg (by tauto)]
      unfold setSl
      rw [if_neg (by tauto)]

theorem canon_bulkStep {n : Nat} (lo num : Nat) (asg : Bool) (f : Nat → Word) (j2 : Nat) (t : Nat → Nat → Word)
    (k b : Nat) :
    (canonSlice n lo num asg).bulkStep n f j2 t k b = if b = j2 ∧ k ∈ List.range' lo num then
      (if asg then orAll (((List.range n).map (sliceTm n k)).map (SliceTerm.val n f (n * j2)))
        else t k j2 ||| orAll (((List.range n).map (sliceTm n k)).map (SliceTerm.val n f (n * j2)))) else t k b := by
  unfold SlicePass.bulkStep canonSlice
  simp only [List.foldl_map]
  exact foldl_setSl j2 (fun k v => if asg then orAll (((List.range n).map (sliceTm n k)).map (SliceTerm.val n f (n * j2)))
        else v ||| orAll (((List.range n).map (sliceTm n k)).map (SliceTerm.val n f (n * j2)))) _ (List.nodup_range') t k b

theorem canon_bulk {n : Nat} (hn : OkW n) (lo num : Nat) (hhi : lo + num ≤ n) (asg : Bool) (f : Nat → Word) (t : Nat → Nat → Word)
    (k b p : Nat) (hp : p < 64) : ∀ nb,
    (forN ((canonSlice n lo num asg).bulkStep n f) nb t k b).getLsbD p = if b < nb ∧ k ∈ List.range' lo num then
      ((!asg && (t k b).getLsbD p) || rowBit f (n * (64 * b + p) + k)) else (t k b).getLsbD p
  | 0 => by simp [forN]
  | nb + 1 => by
    unfold forN
    rw [canon_bulkStep]
    have ih := canon_bulk hn lo num hhi asg f t k b p hp nb
    by_cases hb : b = nb ∧ k ∈ List.range' lo num
    · obtain ⟨rfl, hk⟩ := hb
      rw [if_neg (by omega)] at ih
      have hkn : k < n := by rw [List.mem_range'_1] at hk; omega
      rw [if_pos (⟨rfl, hk⟩ : b = b ∧ k ∈ List.range' lo num), if_pos (⟨by omega, hk⟩ : b < b + 1 ∧ k ∈ List.range' lo num)]
      cases asg
      · rw [if_neg (by simp : ¬ (false = true)), BitVec.getLsbD_or, ih, sliceBulk_bit hn f b hkn hp]
        simp
      · rw [if_pos rfl, sliceBulk_bit hn f b hkn hp]
        simp
    · rw [if_neg hb, ih]
      by_cases h : b < nb ∧ k ∈ List.range' lo num
      · rw [if_pos h, if_pos ⟨by omega, h.2⟩]
      · rw [if_neg h, if_neg]
        rintro ⟨h1, h2⟩
        exact (by tauto : ¬ (b < nb) ∧ b ≠ nb) |>.elim fun a c => by omega

theorem dropWhile_cases {α : Type} (g : Nat → α) (rest : Nat) : ∀ n, 1 ≤ rest → rest ≤ n →
    ((List.range n).reverse.map fun c => (c + 1, g c)).dropWhile (fun c => c.1 != rest) =
      ((List.range rest).reverse.map fun c => (c + 1, g c))
  | 0, h1, h2 => by omega
  | n + 1, h1, h2 => by
    rw [List.range_succ, List.reverse_append, List.reverse_singleton, List.singleton_append, List.map_cons]
    by_cases h : n + 1 = rest
    · subst h
      rw [List.dropWhile_cons_of_neg (by simp), List.range_succ, List.reverse_append, List.reverse_singleton, List.singleton_append, List.map_cons]
    · rw [List.dropWhile_cons_of_pos (by simpa using h)]
      exact dropWhile_cases g rest n h1 (by omega)

theorem foldl_setReg (v : Nat → Word) : ∀ (l : List Nat) (_ : l.Nodup) (r : Nat → Word) (k' : Nat),
    (l.foldl (fun r k => setReg r k (r k ||| v k)) r) k' = if k' ∈ l then r k' ||| v k' else r k'
  | [], _, r, k' => by simp
  | k :: l, hnd, r, k' => by
    rw [List.foldl_cons, foldl_setReg v l (List.nodup_cons.mp hnd).2]
    have hk := (List.nodup_cons.mp hnd).1
    by_cases hm : k' ∈ l
    · have hne : k' ≠ k := fun h => hk (h ▸ hm)
      rw [if_pos hm, if_pos (List.mem_cons_of_mem _ hm)]
      unfold setReg
      rw [if_neg hne]
    · rw [if_neg hm]
      by_cases he : k' = k
      · subst he
        rw [if_pos List.mem_cons_self]
        unfold setReg
        rw [if_pos rfl]
      · rw [if_neg (by simp [he, hm])]
        unfold setReg
        rw [if_neg he]

theorem canon_tail_aux (n : Nat) (f : Nat → Word) (j : Nat) (ks : List Nat) (hnd : ks.Nodup) (p k' : Nat) : ∀ (cs : List Nat) (r : Nat → Word),
    (((cs.map fun c => (c + 1, ks.map fun k => (k, sliceTm n k c))).flatMap (·.2)).foldl
      (fun r s => setReg r s.1 (r s.1 ||| s.2.val n f j)) r k').getLsbD p =
      ((r k').getLsbD p || (decide (k' ∈ ks) && cs.any fun c => ((sliceTm n k' c).val n f j).getLsbD p))
  | [], r => by simp
  | c :: cs, r => by
    rw [List.map_cons, List.flatMap_cons, List.foldl_append, canon_tail_aux n f j ks hnd p k' cs, List.foldl_map,
      foldl_setReg (fun k => (sliceTm n k c).val n f j) ks hnd]
    by_cases hk : k' ∈ ks
    · rw [if_pos hk, BitVec.getLsbD_or, List.any_cons, decide_eq_true hk]
      simp [Bool.or_assoc]
    · rw [if_neg hk, decide_eq_false hk]
      simp

theorem canon_tail {n : Nat} (hn : OkW n) (lo num : Nat) (hhi : lo + num ≤ n) (f : Nat → Word) (j2 rest : Nat) (hr : rest ≤ n)
    (k p : Nat) (hp : p < 64) :
    (SlicePass.tail n f (n * j2) ((List.range rest).reverse.map fun c => (c + 1, (List.range' lo num).map fun k => (k, sliceTm n k c))) k).getLsbD p =
      (decide (k ∈ List.range' lo num) && (decide (p < 64 / n * rest) && rowBit f (n * (64 * j2 + p) + k))) := by
  unfold SlicePass.tail
  rw [canon_tail_aux n f _ _ List.nodup_range']
  simp only [BitVec.ofNat_eq_ofNat, BitVec.getLsbD_zero, Bool.false_or]
  by_cases hk : k ∈ List.range' lo num
  · have hkn : k < n := by rw [List.mem_range'_1] at hk; omega
    rw [decide_eq_true hk, Bool.true_and, Bool.true_and, rowBit_block hn f j2 k p hkn hp]
    rw [Bool.eq_iff_iff, List.any_eq_true]
    constructor
    · rintro ⟨i, hi', h⟩
      have hi : i < rest := by simpa using hi'
      rw [sliceTm_bit hn f _ hkn (by omega) hp] at h
      simp only [Bool.and_eq_true, decide_eq_true_eq] at h ⊢
      obtain ⟨rfl, h⟩ := h
      refine ⟨?_, h⟩
      rw [Nat.mul_comm]
      exact (Nat.div_lt_iff_lt_mul hn.lpos).mp hi
    · intro h
      simp only [Bool.and_eq_true, decide_eq_true_eq] at h
      have hi : p / (64 / n) < rest := by
        rw [Nat.div_lt_iff_lt_mul hn.lpos, Nat.mul_comm]; exact h.1
      refine ⟨p / (64 / n), by simpa using hi, ?_⟩
      rw [sliceTm_bit hn f _ hkn (by omega) hp, h.2]
      simp
  · rw [decide_eq_false hk]; simp

/-- one row of a canonical pass -/
theorem canon_row {n : Nat} (hn : OkW n) (lo num : Nat) (hhi : lo + num ≤ n) (asg : Bool) (width : Nat) (hw : 1 ≤ width)
    (mask : Word) (f : Nat → Word) (t : Nat → Nat → Word) :
    ∃ t', (canonSlice n lo num asg).row n width mask f t = some t' ∧ ∀ k b p, p < 64 → (t' k b).getLsbD p =
      if k ∈ List.range' lo num then
        (if b < (width - 1) / n then (!asg && (t k b).getLsbD p) || rowBit f (n * (64 * b + p) + k)
        else if b = (width - 1) / n then (t k b).getLsbD p ||
          (mask.getLsbD p && decide (p < 64 / n * (width - n * ((width - 1) / n))) && rowBit f (n * (64 * b + p) + k))
        else (t k b).getLsbD p)
      else (t k b).getLsbD p := by
  have hnp := hn.pos
  have h1 := Nat.div_add_mod (width - 1) n
  have h2 := Nat.mod_lt (width - 1) hnp
  unfold SlicePass.row
  simp only
  generalize hnb : (width - 1) / n = nb at *
  have hr1 : 1 ≤ width - n * nb := by omega
  have hr2 : width - n * nb ≤ n := by omega
  have hcs : (canonSlice n lo num asg).cases.dropWhile (fun c => c.1 != width - n * nb) = _ :=
    dropWhile_cases _ _ n hr1 hr2
  have hne : ∃ c cs, ((List.range (width - n * nb)).reverse.map fun c => (c + 1, (List.range' lo num).map fun k => (k, sliceTm n k c))) = c :: cs := by
    rcases hl : ((List.range (width - n * nb)).reverse.map fun c => (c + 1, (List.range' lo num).map fun k => (k, sliceTm n k c))) with _ | ⟨c, cs⟩
    · have := congrArg List.length hl
      simp at this
      omega
    · exact ⟨c, cs, rfl⟩
  obtain ⟨c, cs, hl⟩ := hne
  have htail := fun k p hp => canon_tail hn lo num hhi f nb (width - n * nb) hr2 k p hp
  rw [hl] at htail
  rw [hcs, hl]
  refine ⟨_, rfl, ?_⟩
  intro k b p hp
  have hfin : (canonSlice n lo num asg).finals = List.range' lo num := rfl
  rw [hfin, foldl_setSl nb (fun k v => v ||| (SlicePass.tail n f (n * nb) (c :: cs) k &&& mask)) _ List.nodup_range']
  have hb := canon_bulk hn lo num hhi asg f t k b p hp nb
  by_cases hk : k ∈ List.range' lo num
  · rw [if_pos hk]
    by_cases hbn : b = nb
    · subst hbn
      rw [if_pos ⟨rfl, hk⟩, if_neg (by omega), if_pos rfl, BitVec.getLsbD_or, BitVec.getLsbD_and, htail k p hp, hb,
        if_neg (by omega), decide_eq_true hk]
      congr 1
      rw [Bool.true_and, Bool.and_comm, Bool.and_assoc]
    · rw [if_neg (by tauto), if_neg hbn, hb]
      by_cases hlt : b < nb
      · rw [if_pos ⟨hlt, hk⟩, if_pos hlt]
      · rw [if_neg (by tauto), if_neg hlt]
  · rw [if_neg (by tauto), if_neg hk, hb, if_neg (by tauto)]

/-- what a pass writes to a row, with the destination cleared in the region: `c < nc` of slice `k` gets bit `n*c+k` -/
theorem canon_row_region {n : Nat} (hn : OkW n) (lo num : Nat) (hhi : lo + num ≤ n) (asg : Bool) {nc : Nat} (hnc : 1 ≤ nc)
    (f : Nat → Word) (t : Nat → Nat → Word)
    (ht : ∀ k ∈ List.range' lo num, ∀ c < nc, rowBit (t k) c = false) :
    ∃ t', (canonSlice n lo num asg).row n ((n * nc + 63) / 64) (leftBitmask (nc % 64)) f t = some t' ∧
      ∀ k c, rowBit (t' k) c = if k ∈ List.range' lo num ∧ c < nc then rowBit f (n * c + k) else rowBit (t k) c := by
  have hnp := hn.pos
  have hm := hn.mul
  have hlp := hn.lpos
  have hw1 : 1 ≤ (n * nc + 63) / 64 := by
    have : n * 1 ≤ n * nc := Nat.mul_le_mul_left _ hnc
    omega
  obtain ⟨t', h1, h2⟩ := canon_row hn lo num hhi asg ((n * nc + 63) / 64) hw1 (leftBitmask (nc % 64)) f t
  refine ⟨t', h1, ?_⟩
  intro k c
  -- the number of full blocks
  have hnb : ((n * nc + 63) / 64 - 1) / n = (nc - 1) / 64 := by
    have e1 : (n * nc + 63) / 64 - 1 = (n * nc - 1) / 64 := by
      have : n * 1 ≤ n * nc := Nat.mul_le_mul_left _ hnc
      omega
    rw [e1, Nat.div_div_eq_div_mul]
    have e2 : n * nc - 1 = n * (nc - 1) + (n - 1) := by
      have : n * nc = n * (nc - 1) + n := by
        conv_lhs => rw [show nc = (nc - 1) + 1 by omega]
        ring
      omega
    rw [Nat.mul_comm 64 n, ← Nat.div_div_eq_div_mul, e2, Nat.mul_add_div hnp, Nat.div_eq_of_lt (show n - 1 < n by omega), Nat.add_zero]
  have hpc : c % 64 < 64 := Nat.mod_lt _ (by norm_num)
  have hcd := Nat.div_add_mod c 64
  have hrb : rowBit (t' k) c = (t' k (c / 64)).getLsbD (c % 64) := rfl
  rw [hrb, h2 k (c / 64) (c % 64) hpc, hnb, hcd]
  have hrt : (t k (c / 64)).getLsbD (c % 64) = rowBit (t k) c := rfl
  rw [hrt]
  by_cases hk : k ∈ List.range' lo num
  · rw [if_pos hk]
    by_cases hb : c / 64 < (nc - 1) / 64
    · have hc : c < nc := by omega
      rw [if_pos hb, if_pos ⟨hk, hc⟩, ht k hk c hc]
      simp
    · rw [if_neg hb]
      by_cases hb' : c / 64 = (nc - 1) / 64
      · rw [if_pos hb', getLsbD_leftBitmask _ _ (Nat.mod_lt _ (by norm_num)) hpc]
        by_cases hc : c < nc
        · rw [if_pos ⟨hk, hc⟩, ht k hk c hc]
          have hmask : (nc % 64 = 0 ∨ c % 64 < nc % 64) := by omega
          have hrest : c % 64 < 64 / n * ((n * nc + 63) / 64 - n * ((nc - 1) / 64)) := by
            rw [Nat.mul_sub, ← Nat.mul_assoc, hm, ← hb']
            have : n * nc ≤ 64 * ((n * nc + 63) / 64) := by omega
            have h3 : 64 / n * (n * nc) ≤ 64 / n * (64 * ((n * nc + 63) / 64)) := Nat.mul_le_mul_left _ this
            rw [← Nat.mul_assoc, hm] at h3
            have h4 : 64 / n * (64 * ((n * nc + 63) / 64)) = 64 * (64 / n * ((n * nc + 63) / 64)) := by ring
            rw [h4] at h3
            omega
          rw [decide_eq_true hrest]
          rcases hmask with h0 | h0
          · simp [h0]
          · simp [h0]
        · rw [if_neg (by tauto)]
          have hmask : ¬ (nc % 64 = 0 ∨ c % 64 < nc % 64) := by omega
          push Not at hmask
          simp [hmask.1, Nat.not_lt.mpr hmask.2]
      · rw [if_neg hb', if_neg]
        rintro ⟨_, hc⟩
        omega
  · rw [if_neg hk, if_neg (by tauto)]

end M4rie
