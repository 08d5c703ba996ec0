import Verif.Proofs.WordsLib
import Verif.Props.Packed
import Verif.Props.Echelon
import Verif.Proofs.Pack
import Verif.Spec.View

/-!
# Property C73: threads interleaving between single word accesses

The threads of C69 interleave call by call; here they interleave between any two accesses to a word.
-/

namespace M4rie.Props
open M4rie M4rie.Spec Spec.Code Handle

section
variable {ι : Type} [DecidableEq ι] {lib : WordLib}

/-- **C73** alone, the sequence of word accesses of a call does what the model of the function says - the theorems about the functions hold for it. -/
theorem C73_alone (hl : lib.OK) (c : WCall) (h : c.Ok) (m : Mem) : (c.code lib).alone m = c.effect m := call_alone hl c h m

/-- **C73** a call reads and writes no words but those listed for it, whatever the memory holds and whatever other threads do to it meanwhile. -/
theorem C73_footprint (hl : lib.OK) (c : WCall) (h : c.Ok) : (c.code lib).Keeps c.uses c.writes := call_keeps hl c h

/-- **C73** several threads, each making its own calls; no thread writes a word that another one has to do with.  Then for *every* interleaving of the single
word accesses: once a thread has had as many turns as it makes accesses when alone, it is finished (no thread can be held up by the others), its calls have
returned what they return when nobody else runs, the words it has to do with are as they are when nobody else runs, and no word changes that no
thread is to write. -/
theorem C73_interleavings (hl : lib.OK) (cs : ι → List WCall) (hok : ∀ t, ∀ c ∈ cs t, c.Ok)
    (hrace : ∀ t u, t ≠ u → Disjoint (WCall.allWrites (cs t)) (WCall.allUses (cs u))) (m : Mem) (sched : List ι) :
    let p := fun t => threadC lib (cs t)
    let after := interleave sched p m
    (∀ t, (p t).accesses m ≤ sched.count t → after.1 t = .done (WCall.serial (cs t) m).1 ∧
      ∀ l ∈ WCall.allUses (cs t), after.2 l = (WCall.serial (cs t) m).2 l) ∧
    ∀ l, (∀ t, l ∉ WCall.allWrites (cs t)) → after.2 l = m l := by
  intro p after
  have hsub : ∀ t, WCall.allUses (cs t) ∪ WCall.allWrites (cs t) = WCall.allUses (cs t) := fun t => by
    refine Set.union_eq_left.2 ?_
    rintro l ⟨c, hc, h⟩
    exact ⟨c, hc, Or.inl h⟩
  obtain ⟨-, i2, i3⟩ := interleave_inv (fun t => WCall.allUses (cs t)) (fun t => WCall.allWrites (cs t)) (fun t u h => by rw [hsub]; exact hrace t u h)
    sched p m (fun t => thread_keeps hl (cs t) (hok t))
  refine ⟨fun t ht => ?_, i3⟩
  obtain ⟨j1, j2, j3⟩ := i2 t
  have hz : (after.1 t).accesses after.2 = 0 := by
    show ((interleave sched p m).1 t).accesses (interleave sched p m).2 = 0
    omega
  have hd := accesses_zero hz
  have e : (p t).alone m = WCall.serial (cs t) m := thread_alone hl (cs t) (hok t) m
  refine ⟨?_, fun l hl' => ?_⟩
  · rw [hd]
    show Code.done (((interleave sched p m).1 t).alone (interleave sched p m).2).1 = _
    rw [j1, e]
  · have := j2 l (Or.inl hl')
    rw [e] at this
    rw [← this]
    show after.2 l = ((after.1 t).alone after.2).2 l
    rw [hd]; rfl

/-- **C73** so all interleavings that let every thread finish end with the same memory and the same results. -/
theorem C73_deterministic (hl : lib.OK) (cs : ι → List WCall) (hok : ∀ t, ∀ c ∈ cs t, c.Ok)
    (hrace : ∀ t u, t ≠ u → Disjoint (WCall.allWrites (cs t)) (WCall.allUses (cs u))) (m : Mem) (s1 s2 : List ι)
    (h1 : ∀ t, (threadC lib (cs t)).accesses m ≤ s1.count t) (h2 : ∀ t, (threadC lib (cs t)).accesses m ≤ s2.count t) :
    interleave s1 (fun t => threadC lib (cs t)) m = interleave s2 (fun t => threadC lib (cs t)) m := by
  obtain ⟨a1, a2⟩ := C73_interleavings hl cs hok hrace m s1
  obtain ⟨b1, b2⟩ := C73_interleavings hl cs hok hrace m s2
  refine Prod.ext (funext fun t => (a1 t (h1 t)).1.trans (b1 t (h2 t)).1.symm) (funext fun l => ?_)
  by_cases h : ∃ t, l ∈ WCall.allWrites (cs t)
  · obtain ⟨t, c, hc, hw⟩ := h
    have hu : l ∈ WCall.allUses (cs t) := ⟨c, hc, Or.inl hw⟩
    exact ((a1 t (h1 t)).2 l hu).trans ((b1 t (h2 t)).2 l hu).symm
  · have h' : ∀ t, l ∉ WCall.allWrites (cs t) := fun t ht => h ⟨t, ht⟩
    exact (a2 l h').trans (b2 l h').symm

/-- **C73** the same for threads that decide by the results of their calls what to do next. -/
theorem C73_adaptive {α : Type} (hl : lib.OK) (ps : ι → WProg α) (hok : ∀ t, ∀ c ∈ (ps t).calls, c.Ok)
    (hrace : ∀ t u, t ≠ u → Disjoint (ps t).writes (ps u).uses) (m : Mem) (sched : List ι) :
    let p := fun t => (ps t).code lib
    let after := interleave sched p m
    (∀ t, (p t).accesses m ≤ sched.count t → after.1 t = .done ((ps t).serial m).1 ∧ ∀ l ∈ (ps t).uses, after.2 l = ((ps t).serial m).2 l) ∧
    ∀ l, (∀ t, l ∉ (ps t).writes) → after.2 l = m l := by
  intro p after
  have hsub : ∀ t, (ps t).uses ∪ (ps t).writes = (ps t).uses := fun t => by
    refine Set.union_eq_left.2 ?_
    rintro l ⟨c, hc, h⟩
    exact ⟨c, hc, Or.inl h⟩
  obtain ⟨-, i2, i3⟩ := interleave_inv (fun t => (ps t).uses) (fun t => (ps t).writes) (fun t u h => by rw [hsub]; exact hrace t u h)
    sched p m (fun t => prog_keeps hl (ps t) (hok t))
  refine ⟨fun t ht => ?_, i3⟩
  obtain ⟨j1, j2, j3⟩ := i2 t
  have hz : (after.1 t).accesses after.2 = 0 := by
    show ((interleave sched p m).1 t).accesses (interleave sched p m).2 = 0
    omega
  have hd := accesses_zero hz
  have e : (p t).alone m = (ps t).serial m := prog_alone hl (ps t) (hok t) m
  refine ⟨?_, fun l hl' => ?_⟩
  · rw [hd]
    show Code.done (((interleave sched p m).1 t).alone (interleave sched p m).2).1 = _
    rw [j1, e]
  · have := j2 l (Or.inl hl')
    rw [e] at this
    rw [← this]
    show after.2 l = ((after.1 t).alone after.2).2 l
    rw [hd]; rfl

/-- **C73** for any code at all: what a thread computes does not depend on the others, as long as it keeps to words `R t` and `W t` that nobody else writes,
resp. has to do with - this is all that is needed of a function not modelled word by word. -/
theorem C73_any_code {α : Type} (R W : ι → Set Loc) (p : ι → Code α) (hp : ∀ t, (p t).Keeps (R t) (W t))
    (hrace : ∀ t u, t ≠ u → Disjoint (W t) (R u ∪ W u)) (m : Mem) (sched : List ι) :
    (∀ t, (p t).accesses m ≤ sched.count t → (interleave sched p m).1 t = .done ((p t).alone m).1 ∧
      ∀ l ∈ R t ∪ W t, (interleave sched p m).2 l = ((p t).alone m).2 l) ∧
    ∀ l, (∀ t, l ∉ W t) → (interleave sched p m).2 l = m l := by
  obtain ⟨-, i2, i3⟩ := interleave_inv R W hrace sched p m hp
  refine ⟨fun t ht => ?_, i3⟩
  obtain ⟨j1, j2, j3⟩ := i2 t
  have hz : ((interleave sched p m).1 t).accesses (interleave sched p m).2 = 0 := by omega
  have hd := accesses_zero hz
  refine ⟨by rw [hd, j1], fun l hl' => ?_⟩
  rw [← j2 l hl', hd]; rfl

end

/-! ### which words -/

/-- **C73** different rows of a matrix have no word in common. -/
theorem C73_rows_apart (A : Handle) {r r' : Nat} (h : r ≠ r') : Disjoint (A.rowWords r) (A.rowWords r') := row_disj h

/-- **C73** windows that show disjoint rectangles of a matrix have no word in common - although a window may end in the middle of a word, the next one can
only start at a word boundary. -/
theorem C73_windows_apart (A : Handle) (v w : View) (hv : degreeToW A.ff.degree * v.c % 64 = 0) (hw : degreeToW A.ff.degree * w.c % 64 = 0)
    (hr : v.root = w.root) (hd : v.Disjoint w) :
    Disjoint (A.window v.r v.c (v.r + v.m) (v.c + v.n)).words (A.window w.r w.c (w.r + w.m) (w.c + w.n)).words := by
  rw [Set.disjoint_left]
  rintro l ⟨r, h1, j, h2, rfl⟩ ⟨r', h1', j', h2', e⟩
  unfold Handle.loc Handle.window at e
  injection e with e1 e2 e3
  dsimp only at e2 e3
  have h1 : r < v.r + v.m - v.r := h1
  have h1' : r' < w.r + w.m - w.r := h1'
  have h2 : j < (degreeToW A.ff.degree * (v.c + v.n - v.c) + 63) / 64 := h2
  have h2' : j' < (degreeToW A.ff.degree * (w.c + w.n - w.c) + 63) / 64 := h2'
  rw [Nat.add_sub_cancel_left] at h2 h2'
  have key : ∀ {c n c' : Nat}, degreeToW A.ff.degree * c % 64 = 0 → degreeToW A.ff.degree * c' % 64 = 0 → c + n ≤ c' →
      degreeToW A.ff.degree * c / 64 + (degreeToW A.ff.degree * n + 63) / 64 ≤ degreeToW A.ff.degree * c' / 64 := by
    intro c n c' h h' hc
    have := Nat.mul_le_mul_left (degreeToW A.ff.degree) hc
    rw [Nat.mul_add] at this
    omega
  rcases hd with h | h | h | h | h
  · exact h hr
  · omega
  · omega
  · have := key hv hw h; omega
  · have := key hw hv h; omega

/-- **C73** two elements share a word exactly if they are in the same row and in the same group of `64/w` neighbouring columns. -/
theorem C73_same_word (A : Handle) (hw : A.w ∣ 64) (r c r' c' : Nat) :
    A.elemWord r c = A.elemWord r' c' ↔ r = r' ∧ c / (64 / A.w) = c' / (64 / A.w) := by
  unfold Handle.elemWord
  rw [loc_inj]
  obtain ⟨q, hq⟩ := hw
  have hwp : 0 < A.w := Nat.pos_of_ne_zero fun h => by rw [h] at hq; omega
  have hqq : 64 / A.w = q := by rw [hq, Nat.mul_div_cancel_left _ hwp]
  have e : ∀ x, A.w * x / 64 = x / q := fun x => by rw [hq, Nat.mul_div_mul_left _ _ hwp]
  rw [hqq, e, e]

/-! ### a product computed in parallel -/

section
variable {ι : Type} [DecidableEq ι] {lib : WordLib} {ff : Gf2e} [IsField ff]

/-- the rows `lo ≤ i < hi` of `A`, as a window -/
def rowBlock (A : Handle) (lo hi : Nat) : Handle := A.window lo 0 hi A.ncols

theorem rowBlock_loc (A : Handle) (lo hi r j : Nat) : (rowBlock A lo hi).loc r j = A.loc (lo + r) j := by
  simp only [rowBlock, Handle.window, Handle.loc, Nat.mul_zero, Nat.zero_div, Nat.add_zero, Nat.add_assoc]

theorem rowBlock_words (A : Handle) {lo hi : Nat} (hw : A.w = degreeToW A.ff.degree) {l : Loc} :
    l ∈ (rowBlock A lo hi).words ↔ ∃ r, lo ≤ r ∧ r < hi ∧ l ∈ A.rowWords r := by
  have e : (rowBlock A lo hi).width = A.width := by
    simp only [rowBlock, Handle.window, Handle.width, Nat.sub_zero, hw]
  constructor
  · rintro ⟨r, h1, j, h2, rfl⟩
    have h1 : r < hi - lo := h1
    exact ⟨lo + r, by omega, by omega, j, e ▸ h2, rowBlock_loc ..⟩
  · rintro ⟨r, h1, h2, j, h3, rfl⟩
    refine ⟨r - lo, show r - lo < hi - lo by omega, j, e ▸ h3, ?_⟩
    rw [rowBlock_loc, show lo + (r - lo) = r by omega]

/-- **C73** `C = A*B` with the rows of `C` distributed over threads: thread `t` calls `mzed_mul_naive` on windows showing the rows `lo t ≤ i < hi t` of
`C` and `A`, all of them read `B`.  However the word accesses are interleaved, a thread that has had its turns has computed its rows of the product. -/
theorem C73_parallel_mul (hl : lib.OK) (A B C : Handle) (m : Mem) {MA MB MC : Nat → Nat → Elem ff} (hA : Rep (A.view m) MA) (hB : Rep (B.view m) MB)
    (hC : Rep (C.view m) MC) (h1 : A.ncols = B.nrows) (h2 : C.nrows = A.nrows) (h3 : C.ncols = B.ncols) (h4 : A.fid = B.fid) (h5 : C.fid = A.fid)
    (hCA : Disjoint C.words A.words) (hCB : Disjoint C.words B.words) (lo hi : ι → Nat) (hhi : ∀ t, hi t ≤ C.nrows)
    (hsep : ∀ t u, t ≠ u → hi t ≤ lo u ∨ hi u ≤ lo t) (sched : List ι) (t : ι) :
    let p := fun t => threadC lib [.mulNaive (rowBlock C (lo t) (hi t)) (rowBlock A (lo t) (hi t)) B]
    (p t).accesses m ≤ sched.count t →
      (interleave sched p m).1 t = .done [.unit] ∧
      ∀ i j, lo t ≤ i → i < hi t → j < C.ncols →
        mzedReadElem (C.view (interleave sched p m).2) i j = (∑ k ∈ Finset.range A.ncols, MA i k * MB k j).1 := by
  intro p ht
  have fA : A.ff = ff := hA.ffEq
  have fB : B.ff = ff := hB.ffEq
  have fC : C.ff = ff := hC.ffEq
  have wA : A.w = degreeToW A.ff.degree := by rw [fA]; exact hA.wEq
  have wB : B.w = degreeToW ff.degree := hB.wEq
  have wC : C.w = degreeToW C.ff.degree := by rw [fC]; exact hC.wEq
  have hpos : 0 < degreeToW ff.degree := okW_ff.pos
  have sub : ∀ (X : Handle) (lo hi : Nat), X.w = degreeToW X.ff.degree → hi ≤ X.nrows → (rowBlock X lo hi).words ⊆ X.words := by
    intro X lo hi hw hh l h
    obtain ⟨r, -, r2, r3⟩ := (rowBlock_words X hw).1 h
    exact ⟨r, by omega, r3⟩
  have subC := fun t => sub C (lo t) (hi t) wC (hhi t)
  have subA := fun t => sub A (lo t) (hi t) wA (h2 ▸ hhi t)
  have hok : ∀ t, ∀ c ∈ [WCall.mulNaive (rowBlock C (lo t) (hi t)) (rowBlock A (lo t) (hi t)) B], c.Ok := by
    intro t c hc
    rw [List.mem_singleton.1 hc]
    refine ⟨?_, ?_, ?_, h4, h5, ?_, rfl, ?_, hCA.mono (subC t) (subA t), hCB.mono_left (subC t)⟩
    · show 0 < degreeToW C.ff.degree
      rw [fC]; exact hpos
    · show degreeToW A.ff.degree = degreeToW C.ff.degree
      rw [fC, fA]
    · show B.w = degreeToW C.ff.degree
      rw [fC, wB]
    · show A.ncols - 0 = B.nrows
      omega
    · show C.ncols - 0 = B.ncols
      omega
  have one : ∀ (c : WCall) (l : Loc), (l ∈ WCall.allWrites [c] ↔ l ∈ c.writes) ∧ (l ∈ WCall.allUses [c] ↔ l ∈ c.uses) := fun c l =>
    ⟨⟨fun ⟨c', h, h'⟩ => List.mem_singleton.1 h ▸ h', fun h => ⟨c, List.mem_singleton.2 rfl, h⟩⟩,
     ⟨fun ⟨c', h, h'⟩ => List.mem_singleton.1 h ▸ h', fun h => ⟨c, List.mem_singleton.2 rfl, h⟩⟩⟩
  have hrace : ∀ t u, t ≠ u → Disjoint (WCall.allWrites [WCall.mulNaive (rowBlock C (lo t) (hi t)) (rowBlock A (lo t) (hi t)) B])
      (WCall.allUses [WCall.mulNaive (rowBlock C (lo u) (hi u)) (rowBlock A (lo u) (hi u)) B]) := by
    intro t u htu
    rw [Set.disjoint_left]
    intro l hw hu
    have hw : l ∈ (rowBlock C (lo t) (hi t)).words := (one _ l).1.1 hw
    rcases (one _ l).2.1 hu with h | h | h
    · obtain ⟨r, a1, a2, a3⟩ := (rowBlock_words C wC).1 hw
      obtain ⟨r', b1, b2, b3⟩ := (rowBlock_words C wC).1 h
      have hne : r ≠ r' := by rcases hsep t u htu with h | h <;> omega
      exact Set.disjoint_left.1 (C73_rows_apart C hne) a3 b3
    · exact Set.disjoint_left.1 hCA (subC t hw) (subA u h)
    · exact Set.disjoint_left.1 hCB (subC t hw) h
  obtain ⟨k1, k2⟩ := (C73_interleavings hl _ hok hrace m sched).1 t ht
  refine ⟨k1, fun i j hi1 hi2 hj => ?_⟩
  have blk : ∀ (X : Handle) (MX : Nat → Nat → Elem ff) (a b : Nat), Rep (X.view m) MX → Rep ((rowBlock X a b).view m) fun i j => MX (a + i) j := by
    intro X MX a b hX
    have := C43_window hX a 0 b X.ncols (by simp)
    simp only [Nat.zero_add] at this
    refine ⟨this.ffEq, this.wEq, fun i j => (?_ : _ = _).trans (this.entry i j)⟩
    have e : ((rowBlock X a b).view m).words = (mzedWindow (X.view m) a 0 b X.ncols).words := by
      funext r j
      show m ((rowBlock X a b).loc r j) = m (X.loc (a + r) (_ * 0 / 64 + j))
      rw [rowBlock_loc, Nat.mul_zero, Nat.zero_div, Nat.zero_add]
    rw [e]; rfl
  obtain ⟨R, r1, r2, r3⟩ := C20_mul_naive (blk A MA (lo t) (hi t) hA) hB (blk C MC (lo t) (hi t) hC) (show A.ncols - 0 = B.nrows by omega) h4 h5 rfl
    (show C.ncols - 0 = B.ncols by omega)
  have he : (WCall.serial [WCall.mulNaive (rowBlock C (lo t) (hi t)) (rowBlock A (lo t) (hi t)) B] m).2 = (rowBlock C (lo t) (hi t)).put m R := by
    show (rowBlock C (lo t) (hi t)).put m ((mzedMulNaive? _ _ _).getD _) = _
    rw [r1]; rfl
  rw [he] at k2
  have hjw : C.w * j / 64 < C.width := by
    have hp : 0 < C.w := by rw [wC, fC]; exact hpos
    have : C.w * j + C.w ≤ C.w * C.ncols := by rw [← Nat.mul_succ]; exact Nat.mul_le_mul_left _ hj
    show C.w * j / 64 < (C.w * C.ncols + 63) / 64
    omega
  have hword : (interleave sched p m).2 (C.loc i (C.w * j / 64)) = R.words (i - lo t) (C.w * j / 64) := by
    have hm : C.loc i (C.w * j / 64) ∈ (rowBlock C (lo t) (hi t)).words := (rowBlock_words C wC).2 ⟨i, hi1, hi2, _, hjw, rfl⟩
    rw [k2 _ ((one _ _).2.2 (Or.inl hm))]
    have e : C.loc i (C.w * j / 64) = (rowBlock C (lo t) (hi t)).loc (i - lo t) (C.w * j / 64) := by
      rw [rowBlock_loc, show lo t + (i - lo t) = i by omega]
    rw [e]
    refine putW_loc (show i - lo t < hi t - lo t by omega) ?_
    show _ < (degreeToW C.ff.degree * (C.ncols - 0) + 63) / 64
    rw [← wC, Nat.sub_zero]; exact hjw
  have hR : mzedReadElem R (i - lo t) j = mzedReadElem (C.view (interleave sched p m).2) i j := by
    have ew : R.w = C.w := by rw [r3.wEq, wC, fC]
    unfold mzedReadElem mzdReadBits
    show (R.words (i - lo t) (R.w * j / 64) <<< (64 - (R.w * j % 64 + R.w))) >>> (64 - R.w) =
      ((interleave sched p m).2 (C.loc i (C.w * j / 64)) <<< (64 - (C.w * j % 64 + C.w))) >>> (64 - C.w)
    rw [hword, ew]
  rw [← hR, readElem_eq r3.wf]
  refine (r3.entry _ _).trans ?_
  have hin : i - lo t < ((rowBlock C (lo t) (hi t)).view m).nrows ∧ j < ((rowBlock C (lo t) (hi t)).view m).ncols :=
    ⟨show i - lo t < hi t - lo t by omega, show j < C.ncols - 0 by omega⟩
  rw [if_pos hin, show lo t + (i - lo t) = i by omega]
  rfl
end

/-! ### what goes wrong otherwise -/

/-- the two threads of the following theorem: one element each, side by side in one row -/
def neighbours (A : Handle) : Fin 2 → List WCall := fun t => [.writeElem A 0 t.1 1#64]

/-- **C73** disjoint elements are not enough: of two threads that each write one element of the same word, one may lose its update.  Neither does it happen
when one thread runs after the other, nor does any of them write to the other's element. -/
theorem C73_violation_neighbours (lib : WordLib) (A : Handle) (hw : A.w = 2 ∨ A.w = 4 ∨ A.w = 8 ∨ A.w = 16)
    (hr : 0 < A.nrows) (hc : 2 ≤ A.ncols) :
    ∃ (m : Mem) (sched : List (Fin 2)), (∀ t, (threadC lib (neighbours A t)).accesses m ≤ sched.count t) ∧
      (let after := interleave sched (fun t => threadC lib (neighbours A t)) m
       (∀ t, after.1 t = .done [.unit]) ∧ mzedReadElem (A.view after.2) 0 0 = 1#64 ∧ mzedReadElem (A.view after.2) 0 1 = 0#64) ∧
      ∀ t u : Fin 2, t ≠ u → mzedReadElem (A.view (WCall.serial (neighbours A t ++ neighbours A u) m).2) 0 1 = 1#64 := by
  refine ⟨fun _ => 0#64, [0, 1, 1, 1, 1, 0, 0, 0], ?_, ?_, ?_⟩
  · intro t
    fin_cases t <;> exact le_refl 4
  · refine ⟨fun t => ?_, ?_, ?_⟩
    · fin_cases t <;> rfl
    · rcases hw with h | h | h | h <;>
      simp [interleave, neighbours, threadC, WCall.code, writeElemC, clearElemC, addElemC, updC, Code.andThen, Code.move, Mem.set, mzedReadElem, mzdReadBits, Handle.view, h, Handle.loc]
    · rcases hw with h | h | h | h <;>
      simp [interleave, neighbours, threadC, WCall.code, writeElemC, clearElemC, addElemC, updC, Code.andThen, Code.move, Mem.set, mzedReadElem, mzdReadBits, Handle.view, h, Handle.loc]
  · intro t u htu
    have hok : ∀ c ∈ neighbours A t ++ neighbours A u, c.Ok := by
      intro c hc
      simp only [neighbours, List.cons_append, List.nil_append, List.mem_cons, List.not_mem_nil, or_false] at hc
      rcases hc with rfl | rfl
      · exact ⟨by omega, hr, by have := t.2; omega⟩
      · exact ⟨by omega, hr, by have := u.2; omega⟩
    rw [← thread_alone stdWordLib_ok _ hok]
    fin_cases t <;> fin_cases u <;> first | exact absurd rfl htu | skip
    all_goals
      rcases hw with h | h | h | h <;>
      simp [neighbours, threadC, WCall.code, writeElemC, clearElemC, addElemC, updC, Code.andThen, Code.alone, Mem.set, mzedReadElem, mzdReadBits, Handle.view, h, Handle.loc] <;> decide

/-! ### the hypotheses are satisfiable -/

section
variable {ff : Gf2e} [IsField ff]

/-- three matrices in three allocations -/
def demoMem (X Y Z : Mat ff) : Mem := fun l => (if l.buf = 0 then X else if l.buf = 1 then Y else Z).pack.words l.row l.word
/-- the header of matrix `k` of `demoMem` -/
def demoHandle (X : Mat ff) (k : Nat) : Handle := ⟨ff, X.fid, X.nrows, X.ncols, degreeToW ff.degree, k, 0, 0⟩

theorem demo_view (X Y Z : Mat ff) :
    Rep ((demoHandle X 0).view (demoMem X Y Z)) X.e ∧ Rep ((demoHandle Y 1).view (demoMem X Y Z)) Y.e ∧ Rep ((demoHandle Z 2).view (demoMem X Y Z)) Z.e := by
  have key : ∀ (W : Mat ff) (k : Nat), (if k = 0 then X else if k = 1 then Y else Z) = W → Rep ((demoHandle W k).view (demoMem X Y Z)) W.e := by
    intro W k h
    refine ⟨rfl, rfl, fun i j => ?_⟩
    rw [← (pack_rep W).entry i j]
    have e : ((demoHandle W k).view (demoMem X Y Z)).words = W.pack.words := by
      funext r q
      show (if k = 0 then X else if k = 1 then Y else Z).pack.words (0 + r) (0 + q) = _
      rw [h, Nat.zero_add, Nat.zero_add]
    rw [e]; rfl
  exact ⟨key X 0 rfl, key Y 1 rfl, key Z 2 rfl⟩

omit [IsField ff] in
theorem demo_apart (X Y : Mat ff) {a b : Nat} (h : a ≠ b) : Disjoint (demoHandle X a).words (demoHandle Y b).words := by
  rw [Set.disjoint_left]
  rintro l ⟨r, -, j, -, rfl⟩ ⟨r', -, j', -, e⟩
  exact h (congrArg Loc.buf e)
end

-- three threads multiply a 30 x 20 by a 20 x 11 matrix, ten rows each
example : ∃ ff, ∃ _ : IsField ff, ∃ (A B C : Handle) (m : Mem) (MA MB MC : Nat → Nat → Elem ff), WordLib.OK stdWordLib ∧
    Rep (A.view m) MA ∧ Rep (B.view m) MB ∧ Rep (C.view m) MC ∧ A.ncols = B.nrows ∧ C.nrows = A.nrows ∧ C.ncols = B.ncols ∧ A.fid = B.fid ∧ C.fid = A.fid ∧
    Disjoint C.words A.words ∧ Disjoint C.words B.words ∧ (∀ t : Fin 3, 10 * t.1 + 10 ≤ C.nrows) ∧
    (∀ t u : Fin 3, t ≠ u → 10 * t.1 + 10 ≤ 10 * u.1 ∨ 10 * u.1 + 10 ≤ 10 * t.1) ∧ MA 1 1 ≠ 0 ∧ MB 1 1 ≠ 0 := by
  obtain ⟨ff, h, hd⟩ := exists_aes
  obtain ⟨h1, h2, h3⟩ := demo_view (ff := ff) ⟨30, 20, 0, fun _ _ => 1⟩ ⟨20, 11, 0, fun _ _ => 1⟩ ⟨30, 11, 0, fun _ _ => 0⟩
  refine ⟨ff, h, _, _, _, _, _, _, _, stdWordLib_ok, h1, h2, h3, (rfl : 20 = 20), (rfl : 30 = 30), (rfl : 11 = 11), (rfl : 0 = 0), (rfl : 0 = 0),
    demo_apart _ _ (by decide), demo_apart _ _ (by decide), fun t => ?_, fun t u htu => ?_, one_ne_zero, one_ne_zero⟩
  · show 10 * t.1 + 10 ≤ 30
    omega
  · have := Fin.val_ne_of_ne htu
    omega

-- two threads that eliminate with the same row of one matrix: both read row 0, one writes row 1, the other one row 2 and then looks at it
example : ∃ ff, ∃ _ : IsField ff, ∃ (A : Handle) (m : Mem) (M : Nat → Nat → Elem ff), A.ff = ff ∧ Rep (A.view m) M ∧
    (let cs : Fin 2 → List WCall := fun t => if t = 0 then [.addMultipleOfRow A 1 A 0 2#64 3] else [.addMultipleOfRow A 2 A 0 3#64 0, .readElem A 2 5]
     (∀ t, ∀ c ∈ cs t, c.Ok) ∧ ∀ t u, t ≠ u → Disjoint (WCall.allWrites (cs t)) (WCall.allUses (cs u))) := by
  obtain ⟨ff, h, hd⟩ := exists_aes
  obtain ⟨h1, -, -⟩ := demo_view (ff := ff) ⟨3, 20, 0, fun _ _ => 1⟩ ⟨0, 0, 0, fun _ _ => 1⟩ ⟨0, 0, 0, fun _ _ => 0⟩
  have hp : 0 < degreeToW ff.degree := okW_ff.pos
  refine ⟨ff, h, demoHandle ⟨3, 20, 0, fun _ _ => 1⟩ 0, _, _, rfl, h1, ?_⟩
  generalize hA : demoHandle (ff := ff) ⟨3, 20, 0, fun _ _ => 1⟩ 0 = A
  have a1 : A.nrows = 3 := by rw [← hA]; rfl
  have a2 : A.ncols = 20 := by rw [← hA]; rfl
  have a3 : 0 < A.w := by rw [← hA]; exact hp
  have el : A.elemWord 2 5 ∈ A.rowWords 2 := by
    refine ⟨_, ?_, rfl⟩
    have : A.w * 6 ≤ A.w * A.ncols := Nat.mul_le_mul_left _ (by omega)
    show A.w * 5 / 64 < (A.w * A.ncols + 63) / 64
    omega
  have d := fun {r r'} (h : r ≠ r') => Set.disjoint_left.1 (C73_rows_apart A h)
  refine ⟨fun t c hc => ?_, fun t u htu => ?_⟩
  · fin_cases t
    · simp at hc
      subst hc
      exact ⟨a3, by omega, by omega, by omega, rfl, rfl, C73_rows_apart A (by decide)⟩
    · simp at hc
      rcases hc with rfl | rfl
      · exact ⟨a3, by omega, by omega, by omega, rfl, rfl, C73_rows_apart A (by decide)⟩
      · exact ⟨a3, by omega, by omega⟩
  · fin_cases t <;> fin_cases u <;> first | exact absurd rfl htu | skip
    · rw [Set.disjoint_left]
      rintro l ⟨c, hc, hw⟩ ⟨c', hc', hu⟩
      simp at hc hc'
      subst hc
      have hw : l ∈ A.rowWords 1 := hw
      rcases hc' with rfl | rfl
      · rcases hu with hu | hu
        · exact d (by decide) hw hu
        · exact d (by decide) hw hu
      · rcases hu with hu | hu
        · exact hu
        · rw [Set.mem_singleton_iff.1 hu] at hw
          exact d (by decide) hw el
    · rw [Set.disjoint_left]
      rintro l ⟨c, hc, hw⟩ ⟨c', hc', hu⟩
      simp at hc hc'
      subst hc'
      rcases hc with rfl | rfl
      · have hw : l ∈ A.rowWords 2 := hw
        rcases hu with hu | hu
        · exact d (by decide) hw hu
        · exact d (by decide) hw hu
      · exact hw

-- a thread that looks at an element and eliminates with it (`C73_adaptive`), while another one reads the pivot row and works on row 2
example : ∃ ff, ∃ _ : IsField ff, ∃ (A : Handle) (m : Mem) (M : Nat → Nat → Elem ff), A.ff = ff ∧ Rep (A.view m) M ∧
    (let ps : Fin 2 → WProg Bool := fun t => .call (.readElem A (t.1 + 1) 0) fun r => match r with
       | .elem x => if x = 0#64 then .ret false else .call (.addMultipleOfRow A (t.1 + 1) A 0 x 0) fun _ => .ret true
       | _ => .ret false
     (∀ t, ∀ c ∈ (ps t).calls, c.Ok) ∧ ∀ t u, t ≠ u → Disjoint (ps t).writes (ps u).uses) := by
  obtain ⟨ff, h, hd⟩ := exists_aes
  obtain ⟨h1, -, -⟩ := demo_view (ff := ff) ⟨3, 20, 0, fun _ _ => 1⟩ ⟨0, 0, 0, fun _ _ => 1⟩ ⟨0, 0, 0, fun _ _ => 0⟩
  have hp : 0 < degreeToW ff.degree := okW_ff.pos
  refine ⟨ff, h, demoHandle ⟨3, 20, 0, fun _ _ => 1⟩ 0, _, _, rfl, h1, ?_⟩
  generalize hA : demoHandle (ff := ff) ⟨3, 20, 0, fun _ _ => 1⟩ 0 = A
  have a1 : A.nrows = 3 := by rw [← hA]; rfl
  have a2 : A.ncols = 20 := by rw [← hA]; rfl
  have a3 : 0 < A.w := by rw [← hA]; exact hp
  intro ps
  have hcalls : ∀ (t : Fin 2) c, c ∈ (ps t).calls → c = .readElem A (t.1 + 1) 0 ∨ ∃ x, c = .addMultipleOfRow A (t.1 + 1) A 0 x 0 := by
    rintro t c (rfl | ⟨r, hr⟩)
    · exact Or.inl rfl
    · cases r with
      | elem x =>
        by_cases hx : x = 0#64
        · simp [hx, WProg.calls] at hr
        · simp [hx, WProg.calls] at hr
          exact Or.inr ⟨x, hr⟩
      | unit => simp [WProg.calls] at hr
      | rank n => simp [WProg.calls] at hr
  have d := fun {r r'} (h : r ≠ r') => Set.disjoint_left.1 (C73_rows_apart A h)
  have el : ∀ r, A.elemWord r 0 ∈ A.rowWords r := fun r => by
    refine ⟨_, ?_, rfl⟩
    have : A.w * 1 ≤ A.w * A.ncols := Nat.mul_le_mul_left _ (by omega)
    show A.w * 0 / 64 < (A.w * A.ncols + 63) / 64
    omega
  refine ⟨fun t c hc => ?_, fun t u htu => ?_⟩
  · have := t.2
    rcases hcalls t c hc with rfl | ⟨x, rfl⟩
    · exact ⟨a3, by omega, by omega⟩
    · exact ⟨a3, by omega, by omega, by omega, rfl, rfl, C73_rows_apart A (by omega)⟩
  · have hne : t.1 + 1 ≠ u.1 + 1 := fun e => htu (Fin.ext (by omega))
    rw [Set.disjoint_left]
    rintro l ⟨c, hc, hw⟩ ⟨c', hc', hu⟩
    rcases hcalls t c hc with rfl | ⟨x, rfl⟩
    · exact hw
    · have hw : l ∈ A.rowWords (t.1 + 1) := hw
      rcases hcalls u c' hc' with rfl | ⟨x', rfl⟩
      · rcases hu with hu | hu
        · exact hu
        · rw [Set.mem_singleton_iff.1 hu] at hw
          exact d hne hw (el _)
      · rcases hu with hu | hu
        · exact d hne hw hu
        · exact d (by omega) hw hu

-- `C73_windows_apart`: over GF(2^8), columns 0-12 (ending in the middle of the second word) and columns 16-25
example : ∃ ff, ∃ _ : IsField ff, degreeToW ff.degree * 0 % 64 = 0 ∧ degreeToW ff.degree * 16 % 64 = 0 ∧
    View.Disjoint ⟨0, 0, 0, 5, 13⟩ ⟨0, 0, 16, 5, 10⟩ := by
  obtain ⟨ff, h, hd⟩ := exists_aes
  refine ⟨ff, h, by simp, ?_, ?_⟩
  · have : degreeToW ff.degree = 8 := by rw [hd]; decide
    rw [this]
  · exact Or.inr (Or.inr (Or.inr (Or.inl (by decide))))

end M4rie.Props
