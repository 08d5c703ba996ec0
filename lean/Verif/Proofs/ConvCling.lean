import Verif.Proofs.ConvSlice

/-! The clinging passes: bit `c` of slice `k` goes to bit `n*c + k` of the packed row. -/

namespace M4rie
open M4rie.Spec

def clingTm (n i k : Nat) : ClingTerm := ⟨k, 64 - 64 / n * (i + 1), n - 1 - k⟩

/-- the passes whose switch falls through -/
def canonCling (n lo num : Nat) (op : ClingOp) : ClingPass where
  bulk := (List.range n).map fun i => (i, op, (List.range' lo num).map (clingTm n i))
  cases := (List.range n).reverse.map fun c => (c + 1, [(c, op, (List.range' lo num).map (clingTm n c))])
  fall := true

/-- the passes whose cases end in `break` -/
def canonClingB (n lo num : Nat) : ClingPass where
  bulk := (List.range n).map fun i => (i, .set, (List.range' lo num).map (clingTm n i))
  cases := (List.range n).reverse.map fun c => (c + 1, ((List.range c).map fun i => (i, .set, (List.range' lo num).map (clingTm n i))) ++
    [(c, .masked, (List.range' lo num).map (clingTm n c))])
  fall := false

theorem clingPass2_eq : clingPass2 = canonClingB 2 0 2 := by rfl
theorem clingPass4_4_eq : clingPass4_4 = canonClingB 4 0 4 := by rfl
theorem clingPass4_3_eq : clingPass4_3 = canonClingB 4 0 3 := by rfl
theorem clingPass8_5_eq : clingPass8_5 = canonCling 8 0 5 .set := by rfl
theorem clingPass8_6_eq : clingPass8_6 = canonCling 8 0 6 .set := by rfl
theorem clingPass8_7_eq : clingPass8_7 = canonCling 8 0 7 .set := by rfl
theorem clingPass8_8_eq : clingPass8_8 = canonCling 8 0 8 .set := by rfl
theorem clingPass16_lo_eq : clingPass16_lo = canonCling 16 0 8 .set := by rfl
theorem clingPass16_mid_eq : clingPass16_mid = canonCling 16 8 4 .or := by rfl
theorem clingPass16_9_eq : clingPass16_9 = canonCling 16 8 1 .or := by rfl
theorem clingPass16_10_eq : clingPass16_10 = canonCling 16 8 2 .or := by rfl
theorem clingPass16_11_eq : clingPass16_11 = canonCling 16 8 3 .or := by rfl
theorem clingPass16_13_eq : clingPass16_13 = canonCling 16 12 1 .or := by rfl
theorem clingPass16_14_eq : clingPass16_14 = canonCling 16 12 2 .or := by rfl
theorem clingPass16_15_eq : clingPass16_15 = canonCling 16 12 3 .or := by rfl
theorem clingPass16_16_eq : clingPass16_16 = canonCling 16 12 4 .or := by rfl

theorem clingTm_bit {n : Nat} (hn : OkW n) (f : Nat → Nat → Word) (j2 : Nat) {k i : Nat} (hk : k < n) (hi : i < n) {p : Nat} (hp : p < 64) :
    ((clingTm n i k).val n f j2).getLsbD p = (decide (p % n = k) && rowBit (f k) ((64 * (n * j2 + i) + p) / n)) := by
  unfold ClingTerm.val clingTm
  simp only [BitVec.getLsbD_ushiftRight]
  have hm := hn.mul
  have hlp := hn.lpos
  have hnp := hn.pos
  have hmi : 64 / n * (i + 1) ≤ 64 := by
    calc 64 / n * (i + 1) ≤ 64 / n * n := Nat.mul_le_mul_left _ hi
      _ = 64 := hm
  generalize hm' : 64 / n = m at *
  have hdm := Nat.div_add_mod p n
  have hml := Nat.mod_lt p hnp
  have e1 : m * (i + 1) = m * i + m := Nat.mul_succ m i
  have hpn : p / n < m := by
    rw [Nat.div_lt_iff_lt_mul hnp, hm]; exact hp
  have hpn' : n * (p / n) + n ≤ 64 := by
    calc n * (p / n) + n = n * (p / n + 1) := by ring
      _ ≤ n * m := Nat.mul_le_mul_left _ hpn
      _ = 64 := by rw [Nat.mul_comm]; exact hm
  have ecell : (64 * (n * j2 + i) + p) / n = 64 * j2 + (m * i + p / n) := by
    have : 64 * (n * j2 + i) + p = n * (64 * j2 + m * i) + p := by
      calc 64 * (n * j2 + i) + p = n * (64 * j2) + 64 * i + p := by ring
        _ = n * (64 * j2) + (m * n) * i + p := by rw [hm]
        _ = _ := by ring
    rw [this, Nat.mul_add_div hnp]
    ring
  have hcell : m * i + p / n < 64 := by omega
  have erow : rowBit (f k) ((64 * (n * j2 + i) + p) / n) = (f k j2).getLsbD (m * i + p / n) := by
    rw [ecell]
    unfold rowBit
    rw [Nat.mul_add_div (by norm_num), Nat.mul_add_mod, Nat.div_eq_of_lt hcell, Nat.mod_eq_of_lt hcell, Nat.add_zero]
  rw [erow]
  by_cases hd : p % n = k
  · rw [decide_eq_true hd, Bool.true_and]
    have e5 : n - 1 - k + p = n * (p / n) + (n - 1) := by omega
    rw [e5, wordCling_bit hn _ (by omega), hm']
    have e6 : (n * (p / n) + (n - 1)) % n = n - 1 := by
      rw [Nat.mul_add_mod, Nat.mod_eq_of_lt (by omega)]
    have e7 : (n * (p / n) + (n - 1)) / n = p / n := by
      rw [Nat.mul_add_div hnp, Nat.div_eq_of_lt (show n - 1 < n by omega), Nat.add_zero]
    rw [e6, e7, decide_eq_true rfl, Bool.true_and, BitVec.getLsbD_shiftLeft]
    have h1 : 64 - m + p / n < 64 := by omega
    have h0 : ∀ x mi u m : Nat, m + mi ≤ 64 → u = mi + m → ¬ 64 - m + x < 64 - u ∧ 64 - m + x - (64 - u) = mi + x := by
      intro x mi u m h h'; omega
    have h2 := (h0 (p / n) (m * i) (m * (i + 1)) m (by rw [Nat.add_comm, ← e1]; exact hmi) e1).1
    have h3 := (h0 (p / n) (m * i) (m * (i + 1)) m (by rw [Nat.add_comm, ← e1]; exact hmi) e1).2
    rw [decide_eq_true h1, decide_eq_false h2, h3]
    simp
  · rw [decide_eq_false hd, Bool.false_and]
    by_cases hge : 64 ≤ n - 1 - k + p
    · exact BitVec.getLsbD_of_ge _ _ hge
    · rw [wordCling_bit hn _ (by omega), decide_eq_false, Bool.false_and]
      intro he
      apply hd
      have e8 : n - 1 - k + p = n * (p / n) + (n - 1 - k + p % n) := by omega
      rw [e8, Nat.mul_add_mod] at he
      by_cases hlt : n - 1 - k + p % n < n
      · rw [Nat.mod_eq_of_lt hlt] at he; omega
      · have e9 : n - 1 - k + p % n = n + (p % n - 1 - k) := by omega
        rw [e9, Nat.add_mod_left, Nat.mod_eq_of_lt (by omega)] at he
        omega

/-- the value of a statement -/
def clingVal (n lo num : Nat) (f : Nat → Nat → Word) (j2 i : Nat) : Word :=
  orAll (((List.range' lo num).map (clingTm n i)).map (ClingTerm.val n f j2))

theorem clingVal_bit {n : Nat} (hn : OkW n) (lo num : Nat) (hhi : lo + num ≤ n) (f : Nat → Nat → Word) (j2 : Nat) {i : Nat} (hi : i < n)
    {p : Nat} (hp : p < 64) :
    (clingVal n lo num f j2 i).getLsbD p = (decide (p % n ∈ List.range' lo num) && rowBit (f (p % n)) ((64 * (n * j2 + i) + p) / n)) := by
  unfold clingVal
  rw [getLsbD_orAll, List.map_map, List.any_map, Bool.eq_iff_iff, List.any_eq_true]
  constructor
  · rintro ⟨k, hk, h⟩
    simp only [Function.comp] at h
    have hkn : k < n := by rw [List.mem_range'_1] at hk; omega
    rw [clingTm_bit hn f j2 hkn hi hp] at h
    simp only [Bool.and_eq_true, decide_eq_true_eq] at h ⊢
    obtain ⟨rfl, h⟩ := h
    exact ⟨hk, h⟩
  · intro h
    simp only [Bool.and_eq_true, decide_eq_true_eq] at h
    refine ⟨p % n, h.1, ?_⟩
    simp only [Function.comp]
    rw [clingTm_bit hn f j2 (Nat.mod_lt _ hn.pos) hi hp, h.2]
    simp

theorem foldl_setWord_off (o : Nat) (g : Nat → Word → Word) : ∀ (l : List Nat) (_ : l.Nodup) (t : Nat → Word) (b : Nat),
    (l.foldl (fun t i => setWord t (o + i) (g i (t (o + i)))) t) b = if o ≤ b ∧ b - o ∈ l then g (b - o) (t b) else t b
  | [], _, t, b => by simp
  | i :: l, hnd, t, b => by
    rw [List.foldl_cons, foldl_setWord_off o g l (List.nodup_cons.mp hnd).2]
    have hk := (List.nodup_cons.mp hnd).1
    by_cases hm : o ≤ b ∧ b - o ∈ l
    · have hne : b - o ≠ i := fun h => hk (h ▸ hm.2)
      rw [if_pos hm, if_pos ⟨hm.1, List.mem_cons_of_mem _ hm.2⟩]
      unfold setWord
      rw [if_neg (by omega)]
    · rw [if_neg hm]
      by_cases he : b = o + i
      · subst he
        rw [if_pos ⟨by omega, by rw [Nat.add_sub_cancel_left]; exact List.mem_cons_self⟩]
        unfold setWord
        rw [if_pos rfl, Nat.add_sub_cancel_left]
      · rw [if_neg]
        · unfold setWord
          rw [if_neg he]
        · rintro ⟨h1, h2⟩
          rcases List.mem_cons.mp h2 with h | h
          · omega
          · exact hm ⟨h1, h⟩

/-- new value of a word written by an operation -/
def opVal (mask : Word) (op : ClingOp) (old v : Word) : Word :=
  match op with
  | .set => v
  | .or => old ||| v
  | .masked => (old &&& ~~~mask) ||| (v &&& mask)

theorem clingStmt_eq (n lo num : Nat) (mask : Word) (f : Nat → Nat → Word) (j2 : Nat) (t : Nat → Word) (i : Nat) (op : ClingOp) :
    clingStmt n mask f j2 t (i, op, (List.range' lo num).map (clingTm n i)) =
      setWord t (n * j2 + i) (opVal mask op (t (n * j2 + i)) (clingVal n lo num f j2 i)) := rfl

/-- the bit a pass leaves at position `64*b+p` of the row, inside the region -/
def clingBit (n lo num : Nat) (op : ClingOp) (f : Nat → Nat → Word) (t : Nat → Word) (b p : Nat) : Bool :=
  (decide (op = .or) && (t b).getLsbD p) || (decide (p % n ∈ List.range' lo num) && rowBit (f (p % n)) ((64 * b + p) / n))

theorem opVal_bit {n : Nat} (hn : OkW n) (lo num : Nat) (hhi : lo + num ≤ n) (mask : Word) {op : ClingOp} (hop : op ≠ .masked)
    (f : Nat → Nat → Word) (t : Nat → Word) (j2 : Nat) {i : Nat} (hi : i < n) {p : Nat} (hp : p < 64) :
    (opVal mask op (t (n * j2 + i)) (clingVal n lo num f j2 i)).getLsbD p = clingBit n lo num op f t (n * j2 + i) p := by
  unfold clingBit
  have hv := clingVal_bit hn lo num hhi f j2 hi hp
  cases op with
  | set =>
    show (clingVal n lo num f j2 i).getLsbD p = _
    rw [hv]
    simp
  | or =>
    show (t (n * j2 + i) ||| clingVal n lo num f j2 i).getLsbD p = _
    rw [BitVec.getLsbD_or, hv]
    simp
  | masked => exact absurd rfl hop

theorem canonCling_bulk {n : Nat} (hn : OkW n) (lo num : Nat) (hhi : lo + num ≤ n) (mask : Word) {op : ClingOp} (hop : op ≠ .masked)
    (f : Nat → Nat → Word) (t : Nat → Word) (b p : Nat) (hp : p < 64) : ∀ nb,
    (forN (fun j2 t => ((List.range n).map fun i => (i, op, (List.range' lo num).map (clingTm n i))).foldl (clingStmt n mask f j2) t) nb t b).getLsbD p =
      if b < n * nb then clingBit n lo num op f t b p else (t b).getLsbD p
  | 0 => by simp [forN]
  | nb + 1 => by
    have ih := canonCling_bulk hn lo num hhi mask hop f t b p hp nb
    unfold forN
    simp only [List.foldl_map, clingStmt_eq] at ih ⊢
    rw [foldl_setWord_off (n * nb) (fun i v => opVal mask op v (clingVal n lo num f nb i)) _ List.nodup_range]
    have e1 : n * (nb + 1) = n * nb + n := Nat.mul_succ n nb
    by_cases h : n * nb ≤ b ∧ b - n * nb ∈ List.range n
    · have h2 := List.mem_range.mp h.2
      rw [if_pos h, if_pos (by omega : b < n * (nb + 1))]
      rw [if_neg (by omega)] at ih
      have hb : n * nb + (b - n * nb) = b := by omega
      have hv := opVal_bit hn lo num hhi mask hop f t nb h2 hp
      rw [hb] at hv
      rw [← hv]
      have := clingVal_bit hn lo num hhi f nb h2 hp
      cases op with
      | set => rfl
      | or =>
        show (_ ||| clingVal n lo num f nb (b - n * nb)).getLsbD p = (t b ||| clingVal n lo num f nb (b - n * nb)).getLsbD p
        rw [BitVec.getLsbD_or, BitVec.getLsbD_or, ih]
      | masked => exact absurd rfl hop
    · rw [if_neg h, ih]
      rw [List.mem_range] at h
      by_cases hlt : b < n * nb
      · rw [if_pos hlt, if_pos (by omega)]
      · rw [if_neg hlt, if_neg (by omega)]

theorem foldl_singletons {n lo num : Nat} {mask : Word} {f : Nat → Nat → Word} {j2 : Nat} {op : ClingOp} : ∀ (l : List Nat) (t : Nat → Word),
    ((l.map fun c => (c + 1, [(c, op, (List.range' lo num).map (clingTm n c))])).flatMap (·.2)).foldl (clingStmt n mask f j2) t =
      l.foldl (fun t i => setWord t (n * j2 + i) (opVal mask op (t (n * j2 + i)) (clingVal n lo num f j2 i))) t
  | [], t => rfl
  | c :: l, t => by
    rw [List.map_cons, List.flatMap_cons, List.foldl_append, foldl_singletons l]
    rfl

theorem clingBit_congr {n lo num : Nat} {op : ClingOp} {f : Nat → Nat → Word} {t t' : Nat → Word} {b p : Nat}
    (h : (t b).getLsbD p = (t' b).getLsbD p) : clingBit n lo num op f t b p = clingBit n lo num op f t' b p := by
  unfold clingBit; rw [h]

/-- one row of a falling-through pass -/
theorem canonCling_row {n : Nat} (hn : OkW n) (lo num : Nat) (hhi : lo + num ≤ n) {op : ClingOp} (hop : op ≠ .masked) (width : Nat)
    (hw : 1 ≤ width) (mask : Word) (f : Nat → Nat → Word) (t : Nat → Word) :
    ∃ t', (canonCling n lo num op).row n width mask f t = some t' ∧ ∀ b p, p < 64 → (t' b).getLsbD p =
      if b < width - 1 ∨ (b = width - 1 ∧ mask.getLsbD p) then clingBit n lo num op f t b p else (t b).getLsbD p := by
  have hnp := hn.pos
  have h1 := Nat.div_add_mod (width - 1) n
  have h2 := Nat.mod_lt (width - 1) hnp
  unfold ClingPass.row
  simp only
  have hbulk : (canonCling n lo num op).bulk = (List.range n).map fun i => (i, op, (List.range' lo num).map (clingTm n i)) := rfl
  rw [hbulk]
  generalize hnb : (width - 1) / n = nb at *
  have hr1 : 1 ≤ width - n * nb := by omega
  have hr2 : width - n * nb ≤ n := by omega
  have hcs : (canonCling n lo num op).cases.dropWhile (fun c => c.1 != width - n * nb) = _ :=
    dropWhile_cases _ _ n hr1 hr2
  have hne : ∃ c cs, ((List.range (width - n * nb)).reverse.map fun c => (c + 1, [(c, op, (List.range' lo num).map (clingTm n c))])) = c :: cs := by
    rcases hl : ((List.range (width - n * nb)).reverse.map fun c => (c + 1, [(c, op, (List.range' lo num).map (clingTm n c))])) with _ | ⟨c, cs⟩
    · have := congrArg List.length hl
      simp at this
      omega
    · exact ⟨c, cs, rfl⟩
  obtain ⟨c, cs, hl⟩ := hne
  rw [hcs, hl]
  have hfall : (canonCling n lo num op).fall = true := rfl
  simp only [hfall, if_true]
  refine ⟨_, rfl, ?_⟩
  rw [← hl, foldl_singletons]
  intro b p hp
  have hB := fun b => canonCling_bulk hn lo num hhi mask hop f t b p hp nb
  generalize ht1 : forN (fun j2 t => ((List.range n).map fun i => (i, op, (List.range' lo num).map (clingTm n i))).foldl (clingStmt n mask f j2) t) nb t = t1 at *
  have hF := foldl_setWord_off (n * nb) (fun i v => opVal mask op v (clingVal n lo num f nb i)) (List.range (width - n * nb)).reverse
    (List.nodup_reverse.mpr List.nodup_range) t1
  generalize ht2 : (List.range (width - n * nb)).reverse.foldl (fun t i => setWord t (n * nb + i) (opVal mask op (t (n * nb + i)) (clingVal n lo num f nb i))) t1 = t2 at *
  have hF' : ∀ b, (t2 b).getLsbD p = if b < width then clingBit n lo num op f t b p else (t b).getLsbD p := by
    intro b
    rw [hF b]
    simp only [List.mem_reverse, List.mem_range]
    by_cases hb : n * nb ≤ b ∧ b - n * nb < width - n * nb
    · rw [if_pos hb, if_pos (by omega)]
      have hb' : n * nb + (b - n * nb) = b := by omega
      have hv := opVal_bit hn lo num hhi mask hop f t1 nb (show b - n * nb < n by omega) hp
      rw [hb'] at hv
      rw [hv]
      apply clingBit_congr
      rw [hB b, if_neg (by omega)]
    · rw [if_neg hb, hB b]
      by_cases hlt : b < n * nb
      · rw [if_pos hlt, if_pos (by omega)]
      · rw [if_neg hlt, if_neg (by omega)]
  unfold setWord
  by_cases hb : b = width - 1
  · subst hb
    rw [if_pos rfl, BitVec.getLsbD_or, BitVec.getLsbD_and, BitVec.getLsbD_and, BitVec.getLsbD_not, hF', if_pos (by omega : width - 1 < width),
      hB (width - 1), if_neg (by omega)]
    by_cases hmk : mask.getLsbD p
    · rw [if_pos (Or.inr ⟨rfl, hmk⟩), hmk]; simp
    · rw [if_neg (by simp [hmk])]
      simp only [hmk, hp, decide_true]
      simp
  · rw [if_neg hb, hF']
    by_cases hlt : b < width - 1
    · rw [if_pos (by omega : b < width), if_pos (Or.inl hlt)]
    · rw [if_neg (by omega : ¬ b < width), if_neg (by tauto)]

/-- one row of a pass with breaks -/
theorem canonClingB_row {n : Nat} (hn : OkW n) (lo num : Nat) (hhi : lo + num ≤ n) (width : Nat)
    (hw : 1 ≤ width) (mask : Word) (f : Nat → Nat → Word) (t : Nat → Word) :
    ∃ t', (canonClingB n lo num).row n width mask f t = some t' ∧ ∀ b p, p < 64 → (t' b).getLsbD p =
      if b < width - 1 ∨ (b = width - 1 ∧ mask.getLsbD p) then clingBit n lo num .set f t b p else (t b).getLsbD p := by
  have hnp := hn.pos
  have h1 := Nat.div_add_mod (width - 1) n
  have h2 := Nat.mod_lt (width - 1) hnp
  unfold ClingPass.row
  simp only
  have hbulk : (canonClingB n lo num).bulk = (List.range n).map fun i => (i, .set, (List.range' lo num).map (clingTm n i)) := rfl
  rw [hbulk]
  generalize hnb : (width - 1) / n = nb at *
  have hr1 : 1 ≤ width - n * nb := by omega
  have hr2 : width - n * nb ≤ n := by omega
  obtain ⟨r, hr⟩ : ∃ r, width - n * nb = r + 1 := ⟨width - n * nb - 1, by omega⟩
  have hcs : (canonClingB n lo num).cases.dropWhile (fun c => c.1 != width - n * nb) = _ :=
    dropWhile_cases _ _ n hr1 hr2
  rw [hcs, hr, List.range_succ, List.reverse_append, List.reverse_singleton, List.singleton_append, List.map_cons]
  have hfall : (canonClingB n lo num).fall = false := rfl
  simp only [hfall, Bool.false_eq_true, if_false]
  refine ⟨_, rfl, ?_⟩
  intro b p hp
  have hB := fun b => canonCling_bulk hn lo num hhi mask (op := .set) (by simp) f t b p hp nb
  generalize ht1 : forN (fun j2 t => ((List.range n).map fun i => (i, ClingOp.set, (List.range' lo num).map (clingTm n i))).foldl (clingStmt n mask f j2) t) nb t = t1 at *
  rw [List.foldl_append, List.foldl_map]
  simp only [clingStmt_eq, List.foldl_cons, List.foldl_nil]
  have hF := foldl_setWord_off (n * nb) (fun i v => opVal mask .set v (clingVal n lo num f nb i)) (List.range r) List.nodup_range t1
  generalize ht2 : (List.range r).foldl (fun t i => setWord t (n * nb + i) (opVal mask .set (t (n * nb + i)) (clingVal n lo num f nb i))) t1 = t2 at *
  have hF' : ∀ b, (t2 b).getLsbD p = if b < width - 1 then clingBit n lo num .set f t b p else (t b).getLsbD p := by
    intro b
    rw [hF b]
    simp only [List.mem_range]
    by_cases hb : n * nb ≤ b ∧ b - n * nb < r
    · rw [if_pos hb, if_pos (by omega)]
      have hb' : n * nb + (b - n * nb) = b := by omega
      have hv := opVal_bit hn lo num hhi mask (op := .set) (by simp) f t1 nb (show b - n * nb < n by omega) hp
      rw [hb'] at hv
      rw [hv]
      apply clingBit_congr
      rw [hB b, if_neg (by omega)]
    · rw [if_neg hb, hB b]
      by_cases hlt : b < n * nb
      · rw [if_pos hlt, if_pos (by omega)]
      · rw [if_neg hlt, if_neg (by omega)]
  have hlast : n * nb + r = width - 1 := by omega
  rw [hlast]
  unfold setWord
  by_cases hb : b = width - 1
  · subst hb
    rw [if_pos rfl]
    show ((t2 (width - 1) &&& ~~~mask) ||| (clingVal n lo num f nb r &&& mask)).getLsbD p = _
    rw [BitVec.getLsbD_or, BitVec.getLsbD_and, BitVec.getLsbD_and, BitVec.getLsbD_not, hF', if_neg (by omega : ¬ width - 1 < width - 1)]
    have hv := opVal_bit hn lo num hhi mask (op := .set) (by simp) f t nb (show r < n by omega) hp
    rw [hlast] at hv
    have hv' : (clingVal n lo num f nb r).getLsbD p = _ := hv
    rw [hv']
    by_cases hmk : mask.getLsbD p
    · rw [if_pos (Or.inr ⟨rfl, hmk⟩), hmk]; simp
    · rw [if_neg (by simp [hmk])]
      simp only [hmk, hp, decide_true]
      simp
  · rw [if_neg hb, hF']
    by_cases hlt : b < width - 1
    · rw [if_pos hlt, if_pos (Or.inl hlt)]
    · rw [if_neg hlt, if_neg (by tauto)]

/-- bit `q` after a pass -/
def clingRowSpec (n lo num : Nat) (op : ClingOp) (nc : Nat) (f : Nat → Nat → Word) (t : Nat → Word) (q : Nat) : Bool :=
  if q < n * nc then (decide (op = .or) && rowBit t q) || (decide (q % n ∈ List.range' lo num) && rowBit (f (q % n)) (q / n))
  else rowBit t q

theorem region_iff {n nc : Nat} (hn : OkW n) (hnc : 1 ≤ nc) (q : Nat) :
    (q / 64 < (n * nc + 63) / 64 - 1 ∨ (q / 64 = (n * nc + 63) / 64 - 1 ∧ (leftBitmask (n * nc % 64)).getLsbD (q % 64))) ↔ q < n * nc := by
  have : n * 1 ≤ n * nc := Nat.mul_le_mul_left _ hnc
  have hnp := hn.pos
  rw [getLsbD_leftBitmask _ _ (Nat.mod_lt _ (by norm_num)) (Nat.mod_lt _ (by norm_num))]
  simp only [Bool.or_eq_true, decide_eq_true_eq]
  omega

theorem row_to_spec {n lo num : Nat} (hn : OkW n) {op : ClingOp} {nc : Nat} (hnc : 1 ≤ nc) {f : Nat → Nat → Word} {t t' : Nat → Word}
    (h : ∀ b p, p < 64 → (t' b).getLsbD p =
      if b < (n * nc + 63) / 64 - 1 ∨ (b = (n * nc + 63) / 64 - 1 ∧ (leftBitmask (n * nc % 64)).getLsbD p) then
        clingBit n lo num op f t b p else (t b).getLsbD p) (q : Nat) :
    rowBit t' q = clingRowSpec n lo num op nc f t q := by
  have hq := Nat.div_add_mod q 64
  have h' := h (q / 64) (q % 64) (Nat.mod_lt _ (by norm_num))
  unfold clingRowSpec
  show (t' (q / 64)).getLsbD (q % 64) = _
  rw [h']
  have h64 : q % 64 % n = q % n := Nat.mod_mod_of_dvd q ⟨64 / n, by rw [Nat.mul_comm]; exact hn.mul.symm⟩
  by_cases hr : q < n * nc
  · rw [if_pos ((region_iff hn hnc q).mpr hr), if_pos hr]
    unfold clingBit
    rw [hq, h64]
    rfl
  · rw [if_neg (fun hc => hr ((region_iff hn hnc q).mp hc)), if_neg hr]
    rfl

end M4rie
