import Verif.Model.CheckedConv
import Verif.Proofs.CheckedAlg
import Verif.Proofs.ConvMat
import Verif.Proofs.MulScalar

/-! The checked conversions are defined whenever the total ones are. -/

namespace M4rie.Chk
open M4rie M4rie.Spec

theorem runC_eq {α σ : Type} (f : α → σ → Option σ) (g : σ → α → σ) : ∀ (l : List α), (∀ x ∈ l, ∀ s, f x s = some (g s x)) →
    ∀ s, runC f l s = some (l.foldl g s) := by
  intro l
  induction l with
  | nil => intro _ s; rfl
  | cons x l ih =>
    intro h s
    show (f x s).bind _ = _
    rw [h x List.mem_cons_self s, Option.bind_some, ih (fun y hy => h y (List.mem_cons_of_mem _ hy))]
    rfl

theorem orC_eq {α : Type} (f : α → Option Word) (g : α → Word) : ∀ (l : List α), (∀ x ∈ l, f x = some (g x)) → orC f l = some (orAll (l.map g)) := by
  intro l
  induction l with
  | nil => intro _; rfl
  | cons x l ih =>
    intro h
    show (f x).bind _ = _
    rw [h x List.mem_cons_self, Option.bind_some, ih (fun y hy => h y (List.mem_cons_of_mem _ hy))]
    rfl

theorem forC_M {σ : Type} (I : σ → Prop) (f g : Nat → σ → Option σ) : ∀ (n : Nat) (s : σ), I s →
    (∀ i s, i < n → I s → f i s = g i s ∧ ∀ s', g i s = some s' → I s') → forC f n s = forNM g n s ∧ ∀ s', forNM g n s = some s' → I s' := by
  intro n
  induction n with
  | zero => intro s hs _; exact ⟨rfl, fun s' h => by obtain rfl := Option.some.inj h; exact hs⟩
  | succ n ih =>
    intro s hs h
    obtain ⟨h1, h2⟩ := ih s hs (fun i s hi => h i s (by omega))
    have e : forNM g (n + 1) s = (forNM g n s).bind (g n) := rfl
    have e' : forC f (n + 1) s = (forC f n s).bind (f n) := rfl
    rw [e, e', h1]
    cases hr : forNM g n s with
    | none => exact ⟨rfl, by intro s' h; cases h⟩
    | some s1 =>
      obtain ⟨h3, h4⟩ := h n s1 (by omega) (h2 s1 hr)
      exact ⟨h3, h4⟩

theorem ldk_eq {d W : Nat} {t : Nat → Nat → Word} {k b : Nat} (hk : k < d) (hb : b < W) : ldk d W t k b = some (t k b) := if_pos ⟨hk, hb⟩
theorem stk_eq {d W : Nat} {t : Nat → Nat → Word} {k b : Nat} {v : Word} (hk : k < d) (hb : b < W) : stk d W t k b v = some (setSl t k b v) := if_pos ⟨hk, hb⟩

theorem ok2 : OkW 2 := Or.inl rfl
theorem ok4 : OkW 4 := Or.inr (Or.inl rfl)
theorem ok8 : OkW 8 := Or.inr (Or.inr (Or.inl rfl))
theorem ok16 : OkW 16 := Or.inr (Or.inr (Or.inr rfl))

/-! ### slicing -/

/-- the shift counts are below 64 and the word offset below `m` -/
def tOk (m : Nat) (t : SliceTerm) : Bool := decide (t.word < m) && decide (t.lsh < 64) && decide (t.rsh < 64)

/-- the statements reached from each label use words below the label -/
def casesOk {α : Type} (ok : Nat → α → Bool) : List (Nat × List α) → Bool
  | [] => true
  | c :: cs => ((c :: cs).flatMap (·.2)).all (ok c.1) && casesOk ok cs

theorem casesOk_drop {α : Type} {ok : Nat → α → Bool} {L : Nat} : ∀ {l : List (Nat × List α)} {c cs}, casesOk ok l = true →
    l.dropWhile (fun c => c.1 != L) = c :: cs → c.1 = L ∧ ∀ s ∈ (c :: cs).flatMap (·.2), ok L s = true := by
  intro l
  induction l with
  | nil => intro c cs _ h; cases h
  | cons a l ih =>
    intro c cs h hd
    unfold casesOk at h
    rw [Bool.and_eq_true] at h
    rw [List.dropWhile_cons] at hd
    by_cases e : a.1 = L
    · rw [if_neg (by simp [e])] at hd
      obtain ⟨rfl, rfl⟩ := List.cons.inj hd
      subst e
      exact ⟨rfl, fun s hs => (List.all_eq_true.1 h.1) s hs⟩
    · rw [if_pos (by simp [e])] at hd
      exact ih h.2 hd

def fits (n d : Nat) (P : SlicePass) : Bool :=
  P.bulk.all (fun s => decide (s.1 < d) && s.2.2.all (tOk n)) && casesOk (fun m s => tOk m s.2) P.cases && P.finals.all (fun k => decide (k < d))

theorem sliceVal_eq {n Wf m : Nat} {f : Nat → Word} {j : Nat} {t : SliceTerm} (h : tOk m t = true) (hj : j + m ≤ Wf) :
    sliceVal n Wf f j t = some (t.val n f j) := by
  simp only [tOk, Bool.and_eq_true, decide_eq_true_eq] at h
  unfold sliceVal
  rw [ldr_eq (by omega), Option.bind_some, shl_eq h.1.2, Option.bind_some, shr_eq h.2]
  rfl

theorem sliceRow_eq {n d Wf Wt : Nat} {P : SlicePass} (hP : fits n d P = true) (hW : 0 < Wf) (hn : (Wf - 1) / n < Wt) (mask : Word)
    (f : Nat → Word) (t : Nat → Nat → Word) : sliceRow n P d Wf Wt mask f t = P.row n Wf mask f t := by
  simp only [fits, Bool.and_eq_true] at hP
  obtain ⟨⟨p1, p2⟩, p3⟩ := hP
  rw [List.all_eq_true] at p1 p3
  have hnb : n * ((Wf - 1) / n) ≤ Wf - 1 := Nat.mul_div_le _ _
  unfold sliceRow SlicePass.row
  simp only []
  have bulk := (forC_eq (fun _ _ => True) (fun j2 t => runC (sliceBulkStmt n d Wf Wt f j2) P.bulk t) (P.bulkStep n f) ((Wf - 1) / n) t trivial (by
    intro j2 t hj _
    refine ⟨?_, trivial⟩
    have hj' : n * j2 + n ≤ Wf := by
      have : n * (j2 + 1) ≤ n * ((Wf - 1) / n) := Nat.mul_le_mul_left _ hj
      have e : n * (j2 + 1) = n * j2 + n := Nat.mul_succ _ _
      omega
    unfold SlicePass.bulkStep
    refine runC_eq _ _ _ ?_ t
    intro s hs t
    have hs' := p1 s hs
    rw [Bool.and_eq_true, decide_eq_true_eq, List.all_eq_true] at hs'
    unfold sliceBulkStmt
    rw [orC_eq _ (SliceTerm.val n f (n * j2)) _ (fun x hx => sliceVal_eq (hs'.2 x hx) hj'), Option.bind_some]
    have hjW : j2 < Wt := by omega
    cases s.2.1 with
    | true => rw [if_pos rfl, stk_eq hs'.1 hjW]; rfl
    | false => rw [if_neg (by simp), ldk_eq hs'.1 hjW, Option.bind_some, stk_eq hs'.1 hjW]; rfl)).1
  rw [bulk, Option.bind_some]
  cases hd : P.cases.dropWhile (fun c => c.1 != Wf - n * ((Wf - 1) / n)) with
  | nil => rfl
  | cons c cs =>
    obtain ⟨h1, h2⟩ := casesOk_drop p2 hd
    simp only []
    rw [runC_eq _ (fun r s => setReg r s.1 (r s.1 ||| s.2.val n f (n * ((Wf - 1) / n)))) _ (fun s hs r => by
      unfold sliceTailStmt
      rw [sliceVal_eq (h2 s hs) (by omega), Option.bind_some]) _, Option.bind_some]
    refine runC_eq _ _ _ ?_ _
    intro k hk t
    have := p3 k hk
    rw [decide_eq_true_eq] at this
    unfold sliceFinal
    rw [ldk_eq this hn, Option.bind_some, stk_eq this hn]
    rfl

theorem onRows_eq {T : Slice} {F : Mzed} (h : T.nrows ≤ F.nrows) {row? row : Nat → (Nat → Nat → Word) → Option (Nat → Nat → Word)}
    (hr : ∀ i t, row? i t = row i t) : onRows T F row? = T.onRows row := by
  unfold onRows Slice.onRows
  rw [(forC_M (fun _ => True) _ (fun i x => (row i (fun k b => x k i b)).map (setSlRow x i)) T.nrows T.x trivial (by
    intro i x hi _
    refine ⟨?_, fun _ _ => trivial⟩
    rw [need_eq (by omega), Option.bind_some, hr]
    cases row i (fun k b => x k i b) <;> rfl)).1]

/-- the slices are wide enough for the words of the packed rows -/
theorem word_bound {n c : Nat} (hn : OkW n) (hc : 0 < c) : 0 < (n * c + 63) / 64 ∧ ((n * c + 63) / 64 - 1) / n < (c + 63) / 64 := by
  have hn' := hn.pos
  have h0 : 0 < n * c := Nat.mul_pos hn' hc
  refine ⟨by omega, ?_⟩
  have h1 : (n * c + 63) / 64 - 1 ≤ (n * c - 1) / 64 := by omega
  have h2 : ((n * c + 63) / 64 - 1) / n ≤ (n * c - 1) / 64 / n := Nat.div_le_div_right h1
  rw [Nat.div_div_eq_div_mul, Nat.mul_comm 64 n, ← Nat.div_div_eq_div_mul] at h2
  have h3 : (n * c - 1) / n < c := (Nat.div_lt_iff_lt_mul hn').2 (by rw [Nat.mul_comm c n]; omega)
  omega

theorem slice2Row_eq {d Wf Wt : Nat} (hd : 2 ≤ d) (hW : 0 < Wf) (hn : (Wf - 1) / 2 < Wt) (mask : Word) (f : Nat → Word) (t : Nat → Nat → Word) :
    slice2Row d Wf Wt mask f t = M4rie.slice2Row Wf mask f t := by
  have hw : ∀ j lsh, j + 1 < Wf → lsh < 64 → slice2Word Wf f j lsh = some (slice2Val f j lsh) := by
    intro j lsh hj hl
    unfold slice2Word
    rw [ldr_eq (by omega), Option.bind_some, ldr_eq hj, Option.bind_some, shl_eq hl, Option.bind_some, shl_eq hl, Option.bind_some, shr_eq (by omega)]
    rfl
  have hh : ∀ j lsh, j < Wf → lsh < 64 → slice2Half Wf f j lsh = some (wordSlice 2 ((f (j + 0) <<< lsh) &&& xaaaaaaaa) >>> 32) := by
    intro j lsh hj hl
    unfold slice2Half
    rw [ldr_eq (by omega), Option.bind_some, shl_eq hl, Option.bind_some, shr_eq (by omega)]
  have hp : ∀ t k j2 v, k < d → j2 < Wt → slice2Put d Wt mask t k j2 v = some (setSl t k j2 ((t k j2 &&& ~~~mask) ||| (v &&& mask))) := by
    intro t k j2 v hk hj
    unfold slice2Put
    rw [ldk_eq hk hj, Option.bind_some, stk_eq hk hj]
  have hnb : 2 * ((Wf - 1) / 2) ≤ Wf - 1 := Nat.mul_div_le _ _
  unfold slice2Row M4rie.slice2Row
  simp only []
  have bulk := (forC_eq (fun _ _ => True) (fun j2 t => (slice2Word Wf f (2 * j2) 1).bind fun v => (stk d Wt t 0 j2 v).bind fun t =>
      (slice2Word Wf f (2 * j2) 0).bind fun v => stk d Wt t 1 j2 v)
    (fun j2 t => setSl (setSl t 0 j2 (slice2Val f (2 * j2) 1)) 1 j2 (slice2Val f (2 * j2) 0)) ((Wf - 1) / 2) t trivial (by
    intro j2 t hj _
    refine ⟨?_, trivial⟩
    rw [hw _ _ (by omega) (by omega), Option.bind_some, stk_eq (by omega) (by omega), Option.bind_some, hw _ _ (by omega) (by omega), Option.bind_some,
      stk_eq (by omega) (by omega)])).1
  rw [bulk, Option.bind_some]
  generalize forN _ _ t = t'
  have h12 : Wf - 2 * ((Wf - 1) / 2) = 1 ∨ Wf - 2 * ((Wf - 1) / 2) = 2 := by omega
  rcases h12 with h | h
  · rw [h]
    simp only []
    rw [hh _ _ (by omega) (by omega), Option.bind_some, hp _ _ _ _ (by omega) hn, Option.bind_some, hh _ _ (by omega) (by omega), Option.bind_some,
      hp _ _ _ _ (by omega) hn]
  · rw [h]
    simp only []
    rw [hw _ _ (by omega) (by omega), Option.bind_some, hp _ _ _ _ (by omega) hn, Option.bind_some, hw _ _ (by omega) (by omega), Option.bind_some,
      hp _ _ _ _ (by omega) hn]

section
variable {T : Slice} {F : Mzed} (hr : T.nrows ≤ F.nrows) (hc : T.ncols = F.ncols) 
include hr hc

theorem sliceRun_eq {n : Nat} (hn : OkW n) (hw : F.w = n) {P : SlicePass} (hP : fits n T.depth P = true) (h1 : 0 < F.ncols) : sliceRun n P T F = P.run n T F := by
  unfold sliceRun SlicePass.run
  obtain ⟨b1, b2⟩ := word_bound hn h1
  refine onRows_eq hr fun i t => sliceRow_eq hP ?_ ?_ _ _ _
  · unfold Mzed.width Mzed.bitCols; rw [hw]; exact b1
  · unfold Mzed.width Mzed.bitCols swidth; rw [hw, hc]; exact b2


variable (h0 : mzedIsZero F = false → 0 < F.ncols)
include h0

theorem slice2_eq (dbg : Bool) (hw : F.w = 2) (hd : T.depth = 2) : slice2 dbg T F = mzedSlice2 T F := by
  unfold slice2 mzedSlice2
  rw [assert_eq (by omega), Option.bind_some, need_eq (by omega), Option.bind_some, if_neg (by omega : ¬ ¬ 2 ≤ T.depth)]
  cases hz : mzedIsZero F with
  | true => rfl
  | false =>
    simp only [Bool.false_eq_true, if_false]
    obtain ⟨b1, b2⟩ := word_bound ok2 (h0 hz)
    refine onRows_eq hr fun i t => slice2Row_eq (by omega) ?_ ?_ _ _ _
    · unfold Mzed.width Mzed.bitCols; rw [hw]; exact b1
    · unfold Mzed.width Mzed.bitCols swidth; rw [hw, hc]; exact b2

theorem slice4_eq (dbg : Bool) (hw : F.w = 4) (hd : T.depth = 3 ∨ T.depth = 4) : slice4 dbg T F = mzedSlice4 T F := by
  unfold slice4 mzedSlice4
  rw [assert_eq hd, Option.bind_some, need_eq (by omega), Option.bind_some, if_neg (not_not.2 hd)]
  cases hz : mzedIsZero F with
  | true => rfl
  | false =>
    simp only [Bool.false_eq_true, if_false]
    have h1 := h0 hz
    rcases hd with h | h <;> rw [h]
    · rw [if_pos rfl, if_pos rfl]; exact sliceRun_eq hr hc ok4 hw (by rw [h]; decide +kernel) h1
    · rw [if_neg (by decide), if_neg (by decide)]; exact sliceRun_eq hr hc ok4 hw (by rw [h]; decide +kernel) h1

theorem slice8_eq (dbg : Bool) (hw : F.w = 8) (hd : 4 < T.depth ∧ T.depth ≤ 8) : slice8 dbg T F = mzedSlice8 T F := by
  unfold slice8 mzedSlice8
  rw [assert_eq hd, Option.bind_some, need_eq (by omega), Option.bind_some, if_neg (not_not.2 hd)]
  cases hz : mzedIsZero F with
  | true => rfl
  | false =>
    simp only [Bool.false_eq_true, if_false]
    have h1 := h0 hz
    have : T.depth = 5 ∨ T.depth = 6 ∨ T.depth = 7 ∨ T.depth = 8 := by omega
    rcases this with h | h | h | h <;> rw [h] <;> exact sliceRun_eq hr hc ok8 hw (by rw [h]; decide +kernel) h1

end

/-- a pass keeps the shape of the sliced matrix -/
theorem run_shape {n : Nat} {P : SlicePass} {T T' : Slice} {F : Mzed} (h : P.run n T F = some T') : T'.nrows = T.nrows ∧ T'.ncols = T.ncols ∧ T'.depth = T.depth := by
  unfold SlicePass.run Slice.onRows at h
  obtain ⟨x, -, rfl⟩ := Option.map_eq_some_iff.1 h
  exact ⟨rfl, rfl, rfl⟩

theorem slice16_eq (dbg : Bool) {T : Slice} {F : Mzed} (hr : T.nrows ≤ F.nrows) (hc : T.ncols = F.ncols) (h0 : mzedIsZero F = false → 0 < F.ncols)
    (hw : F.w = 16) (hd : 8 < T.depth ∧ T.depth ≤ 16) : slice16 dbg T F = mzedSlice16 T F := by
  unfold slice16 mzedSlice16
  rw [assert_eq hd, Option.bind_some, need_eq (by omega), Option.bind_some, if_neg (not_not.2 hd)]
  cases hz : mzedIsZero F with
  | true => rfl
  | false =>
    simp only [Bool.false_eq_true, if_false]
    have h1 := h0 hz
    have lo : fits 16 9 slicePass16_lo = true := by decide +kernel
    have mono : ∀ {P d d'}, d ≤ d' → fits 16 d P = true → fits 16 d' P = true := by
      intro P d d' hdd h
      simp only [fits, Bool.and_eq_true, List.all_eq_true, decide_eq_true_eq] at h ⊢
      exact ⟨⟨fun x hx => ⟨by have := (h.1.1 x hx).1; omega, (h.1.1 x hx).2⟩, h.1.2⟩, fun k hk => by have := h.2 k hk; omega⟩
    rw [sliceRun_eq hr hc ok16 hw (mono (by omega) lo) h1]
    cases e1 : slicePass16_lo.run 16 T F with
    | none => rfl
    | some T1 =>
      obtain ⟨a1, a2, a3⟩ := run_shape e1
      simp only [Option.bind_some]
      by_cases h12 : T1.depth ≥ 12
      · rw [if_pos h12, if_pos h12, sliceRun_eq (by omega) (by omega) ok16 hw (mono h12 (by decide +kernel)) h1]
        cases e2 : slicePass16_mid.run 16 T1 F with
        | none => rfl
        | some T2 =>
          obtain ⟨b1, b2, b3⟩ := run_shape e2
          simp only [Option.bind_some]
          have : T2.depth = 12 ∨ T2.depth = 13 ∨ T2.depth = 14 ∨ T2.depth = 15 ∨ T2.depth = 16 := by omega
          rcases this with h | h | h | h | h <;> rw [h]
          · rfl
          all_goals exact sliceRun_eq (by omega) (by omega) ok16 hw (by rw [h]; decide +kernel) h1
      · rw [if_neg h12, if_neg h12]
        have : T1.depth = 9 ∨ T1.depth = 10 ∨ T1.depth = 11 := by omega
        rcases this with h | h | h <;> rw [h] <;> exact sliceRun_eq (by omega) (by omega) ok16 hw (by rw [h]; decide +kernel) h1

theorem sliceDispatch_eq (dbg : Bool) {T : Slice} {F : Mzed} (hr : T.nrows ≤ F.nrows) (hc : T.ncols = F.ncols) (h0 : mzedIsZero F = false → 0 < F.ncols)
    (hw : F.w = degreeToW F.ff.degree) (hd : T.depth = F.ff.degree) (h2 : 2 ≤ F.ff.degree) (h16 : F.ff.degree ≤ 16) :
    sliceDispatch dbg T F = mzedSliceDispatch T F := by
  unfold sliceDispatch mzedSliceDispatch
  have : F.ff.degree = 2 ∨ F.ff.degree = 3 ∨ F.ff.degree = 4 ∨ F.ff.degree = 5 ∨ F.ff.degree = 6 ∨ F.ff.degree = 7 ∨ F.ff.degree = 8 ∨ F.ff.degree = 9 ∨
    F.ff.degree = 10 ∨ F.ff.degree = 11 ∨ F.ff.degree = 12 ∨ F.ff.degree = 13 ∨ F.ff.degree = 14 ∨ F.ff.degree = 15 ∨ F.ff.degree = 16 := by omega
  rcases this with h | h | h | h | h | h | h | h | h | h | h | h | h | h | h <;> rw [h] at hw ⊢ <;> simp only []
  · exact slice2_eq hr hc h0 dbg hw (by omega)
  iterate 2 exact slice4_eq hr hc h0 dbg hw (by omega)
  iterate 4 exact slice8_eq hr hc h0 dbg hw (by omega)
  iterate 8 exact slice16_eq dbg hr hc h0 hw (by omega)

end M4rie.Chk
