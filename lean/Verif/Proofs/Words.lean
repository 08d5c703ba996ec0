import Verif.Spec.Words
import Verif.Proofs.Threads
import Verif.Proofs.LaneRun

/-! # The element and row layer as sequences of word accesses: footprints and effects -/

namespace M4rie
open M4rie.Spec

namespace Spec.Code
variable {α β : Type}

/-- as `Keeps`, and all results satisfy `P` -/
def KeepsR (R W : Set Loc) (P : α → Prop) : Code α → Prop
  | done a => P a
  | read l k => l ∈ R ∧ ∀ v, (k v).KeepsR R W P
  | write l _ k => l ∈ W ∧ k.KeepsR R W P

theorem KeepsR.keeps {R W : Set Loc} {P : α → Prop} {p : Code α} (h : p.KeepsR R W P) : p.Keeps R W := by
  induction p with
  | done a => trivial
  | read l k ih => exact ⟨h.1, fun v => ih v (h.2 v)⟩
  | write l v k ih => exact ⟨h.1, ih h.2⟩

theorem Keeps.keepsR {R W : Set Loc} {p : Code α} (h : p.Keeps R W) : p.KeepsR R W fun _ => True := by
  induction p with
  | done a => trivial
  | read l k ih => exact ⟨h.1, fun v => ih v (h.2 v)⟩
  | write l v k ih => exact ⟨h.1, ih h.2⟩

theorem KeepsR.andThen {R W : Set Loc} {P : α → Prop} {Q : β → Prop} {p : Code α} {f : α → Code β} (hp : p.KeepsR R W P)
    (hf : ∀ a, P a → (f a).KeepsR R W Q) : (p.andThen f).KeepsR R W Q := by
  induction p with
  | done a => exact hf a hp
  | read l k ih => exact ⟨hp.1, fun v => ih v (hp.2 v)⟩
  | write l v k ih => exact ⟨hp.1, ih hp.2⟩

theorem KeepsR.andThenK {R W : Set Loc} {P : α → Prop} {p : Code α} {f : α → Code β} (hp : p.KeepsR R W P)
    (hf : ∀ a, P a → (f a).Keeps R W) : (p.andThen f).Keeps R W :=
  KeepsR.keeps (P := fun _ => True) (hp.andThen fun a ha => (hf a ha).keepsR)

end Spec.Code

open Spec.Code

theorem keeps_forC {R W : Set Loc} {f : Nat → Code Unit} : ∀ {n : Nat}, (∀ i < n, (f i).Keeps R W) → (forC f n).Keeps R W
  | 0, _ => trivial
  | _ + 1, h => keeps_andThen (keeps_forC fun i hi => h i (by omega)) fun _ => h _ (by omega)

namespace Handle

/-- `put` on words -/
noncomputable def putW (A : Handle) (m : Mem) (X : Nat → Nat → Word) : Mem :=
  open Classical in fun l => if l ∈ A.words then X (l.row - A.row0) (l.word - A.block0) else m l

theorem put_eq (A : Handle) (m : Mem) (X : Mzed) : A.put m X = A.putW m X.words := rfl

variable {A : Handle} {m : Mem} {X : Nat → Nat → Word}

theorem loc_mem_row {r j : Nat} (hj : j < A.width) : A.loc r j ∈ A.rowWords r := ⟨j, hj, rfl⟩
theorem loc_mem {r j : Nat} (hr : r < A.nrows) (hj : j < A.width) : A.loc r j ∈ A.words := ⟨r, hr, j, hj, rfl⟩
theorem row_sub {r : Nat} (hr : r < A.nrows) : A.rowWords r ⊆ A.words := fun _ h => ⟨r, hr, h⟩

theorem elem_lt {c : Nat} (hw : 0 < A.w) (hc : c < A.ncols) : A.w * c / 64 < A.width := by
  have := (Nat.mul_lt_mul_left hw).2 hc
  unfold width; omega

theorem loc_inj {r j r' j' : Nat} : A.loc r j = A.loc r' j' ↔ r = r' ∧ j = j' := by
  unfold loc
  constructor
  · intro h; injection h with h1 h2 h3; omega
  · rintro ⟨rfl, rfl⟩; rfl

theorem mem_words {r j : Nat} : A.loc r j ∈ A.words ↔ r < A.nrows ∧ j < A.width := by
  constructor
  · rintro ⟨r', h1, j', h2, h⟩
    rw [loc_inj] at h; omega
  · rintro ⟨h1, h2⟩; exact loc_mem h1 h2

theorem row_disj {r r' : Nat} (h : r ≠ r') : Disjoint (A.rowWords r) (A.rowWords r') := by
  rw [Set.disjoint_left]
  rintro l ⟨j, _, rfl⟩ ⟨j', _, e⟩
  rw [loc_inj] at e; exact h e.1

theorem putW_loc {r j : Nat} (hr : r < A.nrows) (hj : j < A.width) : A.putW m X (A.loc r j) = X r j := by
  unfold putW
  rw [if_pos (loc_mem hr hj)]
  simp [loc]

theorem putW_off {l : Loc} (h : l ∉ A.words) : A.putW m X l = m l := if_neg h

theorem putW_congr {Y : Nat → Nat → Word} (h : ∀ r < A.nrows, ∀ j < A.width, X r j = Y r j) : A.putW m X = A.putW m Y := by
  funext l
  by_cases hl : l ∈ A.words
  · obtain ⟨r, hr, j, hj, rfl⟩ := hl
    rw [putW_loc hr hj, putW_loc hr hj, h r hr j hj]
  · rw [putW_off hl, putW_off hl]

theorem putW_view : A.putW m (A.view m).words = m := by
  funext l
  by_cases hl : l ∈ A.words
  · obtain ⟨r, hr, j, hj, rfl⟩ := hl
    rw [putW_loc hr hj]; rfl
  · rw [putW_off hl]

theorem putW_putW {Y : Nat → Nat → Word} : A.putW (A.putW m X) Y = A.putW m Y := by
  funext l
  by_cases hl : l ∈ A.words
  · obtain ⟨r, hr, j, hj, rfl⟩ := hl
    rw [putW_loc hr hj, putW_loc hr hj]
  · rw [putW_off hl, putW_off hl, putW_off hl]

theorem putW_set {r j : Nat} (hr : r < A.nrows) (hj : j < A.width) (v : Word) :
    (A.putW m X).set (A.loc r j) v = A.putW m (setRow X r (setWord (X r) j v)) := by
  funext l
  unfold Mem.set
  by_cases hl : l ∈ A.words
  · obtain ⟨r', hr', j', hj', rfl⟩ := hl
    rw [putW_loc hr' hj', putW_loc hr' hj']
    unfold setRow setWord
    by_cases h1 : r' = r
    · subst h1
      by_cases h2 : j' = j
      · subst h2; simp
      · rw [if_neg (by rw [loc_inj]; omega), if_pos rfl, if_neg h2]
    · rw [if_neg (by rw [loc_inj]; omega), if_neg h1]
  · rw [if_neg (by rintro rfl; exact hl (loc_mem hr hj)), putW_off hl, putW_off hl]

end Handle

open Handle

theorem setRow_setRow (s : Nat → Nat → Word) (r : Nat) (a b : Nat → Word) : setRow (setRow s r a) r b = setRow s r b := by
  funext i j; unfold setRow; split <;> rfl
theorem setRow_at (s : Nat → Nat → Word) (r : Nat) (a : Nat → Word) : setRow s r a r = a := by
  funext j; unfold setRow; rw [if_pos rfl]
theorem setRow_self' (s : Nat → Nat → Word) (r : Nat) : setRow s r (s r) = s := by
  funext i j; unfold setRow; split
  · next h => rw [h]
  · rfl
theorem setWord_self' (a : Nat → Word) (j : Nat) : setWord a j (a j) = a := by
  funext k; unfold setWord; split
  · next h => rw [h]
  · rfl
theorem setWord_at (a : Nat → Word) (j : Nat) (v : Word) : setWord a j v j = v := if_pos rfl
theorem setWord_ne' (a : Nat → Word) {j k : Nat} (v : Word) (h : k ≠ j) : setWord a j v k = a k := if_neg h
theorem setWord_setWord (a : Nat → Word) (j : Nat) (u v : Word) : setWord (setWord a j u) j v = setWord a j v := by
  funext k; unfold setWord; split <;> rfl

/-! ### one row -/

/-- running `p` when row `ar` is `row`: result and row afterwards are `g row` -/
def RowSpec (A : Handle) (m : Mem) (X : Nat → Nat → Word) (ar : Nat) {α : Type} (p : Code α) (g : (Nat → Word) → α × (Nat → Word)) : Prop :=
  ∀ row, p.alone (A.putW m (setRow X ar row)) = ((g row).1, A.putW m (setRow X ar (g row).2))

section
variable {A : Handle} {m : Mem} {X : Nat → Nat → Word} {ar : Nat} {α β : Type}

theorem RowSpec.congr {p : Code α} {g g' : (Nat → Word) → α × (Nat → Word)} (h : RowSpec A m X ar p g) (e : ∀ row, g row = g' row) :
    RowSpec A m X ar p g' := fun row => by rw [h row, e]

theorem RowSpec.done (a : α) : RowSpec A m X ar (.done a) fun row => (a, row) := fun _ => rfl

theorem RowSpec.andThen {p : Code α} {q : α → Code β} {g : (Nat → Word) → α × (Nat → Word)} {h : α → (Nat → Word) → β × (Nat → Word)}
    (P : α → Prop) (hp : RowSpec A m X ar p g) (hP : ∀ row, P (g row).1) (hq : ∀ a, P a → RowSpec A m X ar (q a) (h a)) :
    RowSpec A m X ar (p.andThen q) fun row => h (g row).1 (g row).2 := fun row => by
  rw [alone_andThen, hp row]
  exact hq _ (hP row) _

theorem RowSpec.then {p : Code Unit} {q : Unit → Code β} {g : (Nat → Word) → (Nat → Word)} {h : (Nat → Word) → β × (Nat → Word)}
    (hp : RowSpec A m X ar p fun row => ((), g row)) (hq : RowSpec A m X ar (q ()) h) :
    RowSpec A m X ar (p.andThen q) fun row => h (g row) := fun row => by
  rw [alone_andThen, hp row]
  exact hq _

theorem RowSpec.read (har : ar < A.nrows) {j : Nat} (hj : j < A.width) {k : Word → Code α} {G : Word → (Nat → Word) → α × (Nat → Word)}
    (h : ∀ v, RowSpec A m X ar (k v) (G v)) : RowSpec A m X ar (.read (A.loc ar j) k) fun row => G (row j) row := fun row => by
  show (k _).alone _ = _
  rw [putW_loc har hj, setRow_at]
  exact h _ row

theorem RowSpec.readFrom {l : Loc} {v : Word} (hv : ∀ row, A.putW m (setRow X ar row) l = v) {k : Word → Code α} {g : (Nat → Word) → α × (Nat → Word)}
    (h : RowSpec A m X ar (k v) g) : RowSpec A m X ar (.read l k) g := fun row => by
  show (k _).alone _ = _
  rw [hv]
  exact h row

theorem RowSpec.write (har : ar < A.nrows) {j : Nat} (hj : j < A.width) (v : Word) {k : Code α} {g : (Nat → Word) → α × (Nat → Word)}
    (h : RowSpec A m X ar k g) : RowSpec A m X ar (.write (A.loc ar j) v k) fun row => g (setWord row j v) := fun row => by
  show k.alone _ = _
  rw [putW_set har hj, setRow_setRow, setRow_at]
  exact h _

theorem rs_wrC (har : ar < A.nrows) {j : Nat} (hj : j < A.width) (v : Word) : RowSpec A m X ar (wrC A ar j v) fun row => ((), setWord row j v) :=
  RowSpec.write har hj v (RowSpec.done ())

theorem rs_updC (har : ar < A.nrows) {j : Nat} (hj : j < A.width) (f : Word → Word) :
    RowSpec A m X ar (updC A ar j f) fun row => ((), setWord row j (f (row j))) :=
  RowSpec.read har hj fun v => RowSpec.write har hj (f v) (RowSpec.done ())

/-- reading row `br` of `B` gives `f`, whatever is in row `ar` of `A` -/
def SrcRow (A : Handle) (m : Mem) (X : Nat → Nat → Word) (ar : Nat) (B : Handle) (br : Nat) (f : Nat → Word) : Prop :=
  ∀ j < A.width, ∀ row, A.putW m (setRow X ar row) (B.loc br j) = f j

variable {B : Handle} {br : Nat} {f : Nat → Word}

theorem rs_xorC (har : ar < A.nrows) (hs : SrcRow A m X ar B br f) {j : Nat} (hj : j < A.width) (h : Word → Word) :
    RowSpec A m X ar (xorC A ar B br j h) fun row => ((), setWord row j (row j ^^^ h (f j))) :=
  RowSpec.readFrom (hs j hj) (RowSpec.read har hj fun v => RowSpec.write har hj (v ^^^ h (f j)) (RowSpec.done ()))

theorem rs_addMidC (har : ar < A.nrows) (hs : SrcRow A m X ar B br f) : ∀ (n j : Nat), j + n ≤ A.width →
    RowSpec A m X ar (addMidC A ar B br j n) fun row => ((), addRowMid f j n row)
  | 0, _, _ => RowSpec.done ()
  | n + 1, j, h => (RowSpec.then (rs_xorC har hs (j := j) (by omega) _) (rs_addMidC har hs n (j + 1) (by omega))).congr fun _ => rfl

theorem rs_addRowC (har : ar < A.nrows) (hs : SrcRow A m X ar B br f) {s : Nat} (hw : 0 < A.w) (hc : s < A.ncols) :
    RowSpec A m X ar (addRowC A ar B br s) fun row => ((), addRowWords A.w A.ncols s row f) := by
  have hb := elem_lt hw hc
  by_cases h : A.width - A.w * s / 64 > 1
  · have e1 : addRowC A ar B br s = (xorC A ar B br (A.w * s / 64) fun b => b &&& rightBitmask (64 - A.w * s % 64)).andThen fun _ =>
        (addMidC A ar B br (A.w * s / 64 + 1) (A.width - 1 - (A.w * s / 64 + 1))).andThen fun _ =>
        xorC A ar B br (A.width - 1) fun b => b &&& A.highBitmask := if_pos h
    rw [e1]
    refine (RowSpec.then (rs_xorC har hs hb _) (RowSpec.then (rs_addMidC har hs _ _ (by omega)) (rs_xorC har hs (j := A.width - 1) (by omega) _))).congr fun row => ?_
    unfold addRowWords
    exact (congrArg (Prod.mk ()) (if_pos h).symm)
  · have e1 : addRowC A ar B br s = xorC A ar B br (A.w * s / 64) fun b => b &&& (rightBitmask (64 - A.w * s % 64) &&& A.highBitmask) := if_neg h
    rw [e1]
    refine (rs_xorC har hs hb _).congr fun row => ?_
    unfold addRowWords
    exact (congrArg (Prod.mk ()) (if_neg h).symm)

/-! #### the loops over the middle words -/

variable {word : List LaneOp → Nat → Code Word} {wr : Nat → Word → Code Unit} {body : List LaneOp → Nat → Word → Word}

theorem rs_seqBody (hword : ∀ ops j, j < A.width → RowSpec A m X ar (word ops j) fun row => (body ops j (row j), row))
    (hwr : ∀ j v, j < A.width → RowSpec A m X ar (wr j v) fun row => ((), setWord row j v)) :
    ∀ (code : List (List LaneOp)) (j : Nat), j + code.length ≤ A.width →
      RowSpec A m X ar (seqBodyC word wr j code) fun row => ((), unrolledBody body j code row)
  | [], _, _ => RowSpec.done ()
  | o :: rest, j, h => by
    have h' : j + (rest.length + 1) ≤ A.width := h
    refine RowSpec.andThen (h := fun t row => ((), unrolledBody body (j + 1) rest (setWord row j t))) (fun _ => True) (hword o j (by omega)) (fun _ => trivial) fun t _ => ?_
    exact (RowSpec.then (hwr j t (by omega)) (rs_seqBody hword hwr rest (j + 1) (by omega))).congr fun _ => rfl

theorem rs_unrolledBody (hword : ∀ ops j, j < A.width → RowSpec A m X ar (word ops j) fun row => (body ops j (row j), row))
    (hwr : ∀ j v, j < A.width → RowSpec A m X ar (wr j v) fun row => ((), setWord row j v))
    (code : List (List LaneOp)) (j : Nat) (h : j + code.length ≤ A.width) :
    RowSpec A m X ar (unrolledBodyC word wr j code) fun row => ((), unrolledBody body j code row) := by
  unfold unrolledBodyC
  split
  · next o o' =>
    have h' : j + 2 ≤ A.width := h
    refine (RowSpec.andThen (h := fun t row => ((), setWord (setWord row j t) (j + 1) (body o' (j + 1) (row (j + 1))))) (fun _ => True)
      (hword o j (by omega)) (fun _ => trivial) fun t _ => ?_).congr fun row => ?_
    · refine RowSpec.andThen (h := fun t' row => ((), setWord (setWord row j t) (j + 1) t')) (fun _ => True) (hword o' (j + 1) (by omega)) (fun _ => trivial) fun t' _ => ?_
      exact (RowSpec.then (hwr j t (by omega)) (hwr (j + 1) t' (by omega))).congr fun _ => rfl
    · show _ = ((), setWord (setWord row j (body o j (row j))) (j + 1) (body o' (j + 1) (setWord row j (body o j (row j)) (j + 1))))
      rw [setWord_ne' _ _ (by omega : j + 1 ≠ j)]
  · exact rs_seqBody hword hwr code j h

theorem rs_unrolledLoop {code : List (List LaneOp)} {b : Nat → Code Unit}
    (hb : ∀ j, j + code.length ≤ A.width → RowSpec A m X ar (b j) fun row => ((), unrolledBody body j code row)) :
    ∀ (fuel j : Nat), RowSpec A m X ar (unrolledLoopC b code.length A.width fuel j) (unrolledLoop body code A.width fuel j)
  | 0, j => RowSpec.done j
  | fuel + 1, j => by
    unfold unrolledLoopC
    split
    · next h => exact (RowSpec.then (hb j (by omega)) (rs_unrolledLoop hb fuel _)).congr fun row => by rw [unrolledLoop, if_pos h]
    · next h => exact (RowSpec.done j).congr fun row => by rw [unrolledLoop, if_neg h]

theorem rs_singleLoop {code : List LaneOp} {b : Nat → Code Unit}
    (hb : ∀ j, j < A.width → RowSpec A m X ar (b j) fun row => ((), setWord row j (body code j (row j)))) :
    ∀ (fuel j : Nat), RowSpec A m X ar (singleLoopC b A.width fuel j) (singleLoop body code A.width fuel j)
  | 0, j => RowSpec.done j
  | fuel + 1, j => by
    unfold singleLoopC
    split
    · next h => exact (RowSpec.then (hb j (by omega)) (rs_singleLoop hb fuel _)).congr fun row => by rw [singleLoop, if_pos h]
    · next h => exact (RowSpec.done j).congr fun row => by rw [singleLoop, if_neg h]

theorem rs_midLoops (hword : ∀ ops j, j < A.width → RowSpec A m X ar (word ops j) fun row => (body ops j (row j), row))
    (hwr : ∀ j v, j < A.width → RowSpec A m X ar (wr j v) fun row => ((), setWord row j v)) (code : LaneCode) (j : Nat) :
    RowSpec A m X ar (midLoopsC word wr code A.width j) (midLoops body code A.width j) :=
  RowSpec.andThen (fun _ => True) (rs_unrolledLoop (rs_unrolledBody hword hwr code.unrolled) A.width j) (fun _ => trivial) fun a _ =>
    rs_singleLoop (fun j hj => RowSpec.andThen (h := fun t row => ((), setWord row j t)) (fun _ => True) (hword code.single j hj) (fun _ => trivial)
      fun t _ => hwr j t hj) A.width a

/-- where the loops end -/
theorem unrolledLoop_fst (code : List (List LaneOp)) (W : Nat) : ∀ (fuel j : Nat) (row : Nat → Word), j ≤ W - 1 →
    (unrolledLoop body code W fuel j row).1 ≤ W - 1
  | 0, _, _, h => h
  | fuel + 1, j, row, h => by
    unfold unrolledLoop
    split
    · exact unrolledLoop_fst code W fuel _ _ (by omega)
    · exact h

theorem singleLoop_fst (code : List LaneOp) (W : Nat) : ∀ (fuel j : Nat) (row : Nat → Word), j ≤ W - 1 → W - 1 - j ≤ fuel →
    (singleLoop body code W fuel j row).1 = W - 1
  | 0, _, _, h, h' => by show _ = _; unfold singleLoop; omega
  | fuel + 1, j, row, h, h' => by
    unfold singleLoop
    split
    · exact singleLoop_fst code W fuel _ _ (by omega) (by omega)
    · show j = _; omega

theorem midLoops_fst (code : LaneCode) (W j : Nat) (row : Nat → Word) (h : j ≤ W - 1) : (midLoops body code W j row).1 = W - 1 :=
  singleLoop_fst _ _ _ _ _ (unrolledLoop_fst _ _ _ _ _ h) (by omega)

theorem rs_rescaleLast (har : ar < A.nrows) {j : Nat} (hj : j < A.width) (mul : Word → Word) : ∀ (ops : List LaneOp) (t : Word),
    RowSpec A m X ar (rescaleLastC mul A ar j ops t) fun row => ((), setWord row j (lastRun mul ops (row j) t))
  | [], t => rs_wrC har hj t
  | op :: ops, t => RowSpec.read (G := fun a row => ((), setWord row j (lastRun mul ops (row j) (t ^^^ (mul ((a &&& op.mask) >>> op.shr) <<< op.shl))))) har hj
      fun a => rs_rescaleLast har hj mul ops _

theorem rs_rescaleWords (har : ar < A.nrows) (hw : 0 < A.w) {s : Nat} (hc : s < A.ncols) (mul : Word → Word) (code : LaneCode) :
    RowSpec A m X ar (rescaleWordsC mul code A ar s) fun row => ((), rescaleWords mul code A.w A.ncols s row) := by
  have hb := elem_lt hw hc
  unfold rescaleWordsC rescaleWords
  refine RowSpec.read (G := fun a0 row => ((), if A.width - A.w * s / 64 = 1 then
      let a := setWord row (A.w * s / 64) (row (A.w * s / 64) &&& ~~~(rightBitmask (64 - A.w * s % 64) &&& A.highBitmask))
      setWord a (A.w * s / 64) (a (A.w * s / 64) ^^^ (laneRun mul (fromCase (A.w * s / A.w % (64 / A.w)) code.first) (a0 >>> (A.w * s % 64)) 0#64 &&& rightBitmask (64 - A.w * s % 64) &&& A.highBitmask))
    else
      let a := setWord row (A.w * s / 64) (row (A.w * s / 64) &&& ~~~rightBitmask (64 - A.w * s % 64))
      let a := setWord a (A.w * s / 64) (a (A.w * s / 64) ^^^ (laneRun mul (fromCase (A.w * s / A.w % (64 / A.w)) code.first) (a0 >>> (A.w * s % 64)) 0#64 &&& rightBitmask (64 - A.w * s % 64)))
      let r := midLoops (fun ops _ v => laneRun mul ops v 0#64) code A.width (A.w * s / 64 + 1) a
      setWord r.2 r.1 (lastRun mul (fromCase (A.w * A.ncols % 64) code.last) (r.2 r.1) (r.2 r.1 &&& ~~~A.highBitmask)))) har hb fun a0 => ?_
  by_cases h : A.width - A.w * s / 64 = 1
  · simp only [if_pos h]
    exact (RowSpec.then (rs_updC har hb _) (rs_updC har hb _)).congr fun _ => rfl
  · simp only [if_neg h]
    refine (RowSpec.then (rs_updC har hb _) (RowSpec.then (rs_updC har hb _) (RowSpec.andThen (h := fun j row => ((), setWord row j (lastRun mul (fromCase (A.w * A.ncols % 64) code.last) (row j) (row j &&& ~~~A.highBitmask))))
      (fun j => j < A.width)
      (rs_midLoops (body := fun ops _ v => laneRun mul ops v 0#64) (fun ops j hj => RowSpec.read (G := fun a row => (laneRun mul ops a 0#64, row)) har hj fun a => RowSpec.done _)
        (fun j v hj => rs_wrC har hj v) code _) (fun row => ?_) fun j hj => ?_))).congr fun _ => rfl
    · rw [midLoops_fst _ _ _ _ (by omega)]; omega
    · exact RowSpec.read (G := fun a row => ((), setWord row j (lastRun mul (fromCase (A.w * A.ncols % 64) code.last) (row j) (a &&& ~~~A.highBitmask)))) har hj
        fun a => rs_rescaleLast har hj mul _ _

theorem rs_addmulLast (har : ar < A.nrows) (hs : SrcRow A m X ar B br f) {j : Nat} (hj : j < A.width) (mul : Word → Word) : ∀ (ops : List LaneOp),
    RowSpec A m X ar (addmulLastC mul A ar B br j ops) fun row => ((), setWord row j (lastRun mul ops (f j) (row j)))
  | [] => (RowSpec.done ()).congr fun row => by show _ = ((), setWord row j (row j)); rw [setWord_self']
  | op :: ops => (RowSpec.then (rs_xorC har hs hj _) (rs_addmulLast har hs hj mul ops)).congr fun row => by
      show ((), setWord (setWord row j _) j (lastRun mul ops (f j) (setWord row j _ j))) = _
      rw [setWord_setWord, setWord_at]; rfl

theorem rs_addmulWords (har : ar < A.nrows) (hs : SrcRow A m X ar B br f) (hw : 0 < A.w) {s : Nat} (hc : s < A.ncols) (mul : Word → Word) (code : LaneCode) :
    RowSpec A m X ar (addmulWordsC mul code A ar B br s) fun row => ((), addmulWords mul code A.w A.ncols s row f) := by
  have hb := elem_lt hw hc
  unfold addmulWordsC addmulWords
  refine RowSpec.readFrom (hs _ hb) ?_
  refine RowSpec.read (G := fun t0 row =>
      let tt := laneRun mul (fromCase (A.w * s / A.w % (64 / A.w)) code.first) (f (A.w * s / 64) >>> (A.w * s % 64)) t0
      ((), if A.width - A.w * s / 64 = 1 then
        let t := setWord row (A.w * s / 64) (row (A.w * s / 64) &&& ~~~A.highBitmask)
        setWord t (A.w * s / 64) (t (A.w * s / 64) ^^^ (tt &&& A.highBitmask))
      else
        let r := midLoops (fun ops j v => laneRun mul ops (f j) v) code A.width (A.w * s / 64 + 1) (setWord row (A.w * s / 64) tt)
        setWord r.2 r.1 (lastRun mul (fromCase (A.w * A.ncols % 64) code.last) (f r.1) (r.2 r.1)))) har hb fun t0 => ?_
  by_cases h : A.width - A.w * s / 64 = 1
  · simp only [if_pos h]
    exact (RowSpec.then (rs_updC har hb _) (rs_updC har hb _)).congr fun _ => rfl
  · simp only [if_neg h]
    refine (RowSpec.then (rs_wrC har hb _) (RowSpec.andThen (h := fun j row => ((), setWord row j (lastRun mul (fromCase (A.w * A.ncols % 64) code.last) (f j) (row j))))
      (fun j => j < A.width)
      (rs_midLoops (body := fun ops j v => laneRun mul ops (f j) v) (fun ops j hj => RowSpec.readFrom (hs j hj)
        (RowSpec.read (G := fun a row => (laneRun mul ops (f j) a, row)) har hj fun a => RowSpec.done _))
        (fun j v hj => rs_wrC har hj v) code _) (fun row => ?_) fun j hj => rs_addmulLast har hs hj mul _)).congr fun _ => rfl
    rw [midLoops_fst _ _ _ _ (by omega)]; omega

end

end M4rie
