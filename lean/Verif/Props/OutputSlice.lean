import Verif.Spec.OutputSlice
import Verif.Props.Kara
import Verif.Props.Blm

/-!
# Property C71: output arguments of the functions on sliced matrices

`Model/OutputSlice.lean` models the functions on a store of matrices, so that the output can be one of the inputs.
-/

namespace M4rie.Props
open M4rie M4rie.Spec M4rie.Store M4rie.SStore

variable {ff : Gf2e} [IsField ff]

theorem supd_self (s : SObjs) (c : Nat) (X : Slice) : supd s c X c = X := if_pos rfl
theorem supd_ne (s : SObjs) {c k : Nat} (h : k ≠ c) (X : Slice) : supd s c X k = s k := if_neg h
theorem supd_supd (s : SObjs) (c : Nat) (X Y : Slice) : supd (supd s c X) c Y = supd s c Y := by
  funext k; unfold supd; split_ifs <;> rfl
theorem sputAll_self (s : SObjs) (c : Nat) (x : Nat → Nat → Nat → Word) : sputAll s c x c = { s c with x := x } := if_pos rfl
theorem sputAll_ne (s : SObjs) {c k : Nat} (h : k ≠ c) (x : Nat → Nat → Nat → Word) : sputAll s c x k = s k := if_neg h
theorem sputAll_x (s : SObjs) (c : Nat) (x : Nat → Nat → Nat → Word) : (sputAll s c x c).x = x := by rw [sputAll_self]
theorem sputAll_eta (s : SObjs) (c : Nat) : sputAll s c (s c).x = s := by
  funext k; unfold sputAll supd; split_ifs with h
  · rw [h]
  · rfl
theorem sputAll_sputAll (s : SObjs) (c : Nat) (x y : Nat → Nat → Nat → Word) : sputAll (sputAll s c x) c y = sputAll s c y := by
  unfold sputAll
  rw [supd_self, supd_supd]
theorem sput_sputAll (s : SObjs) (c i : Nat) (x : Nat → Nat → Nat → Word) (v : Nat → Nat → Word) :
    sput (sputAll s c x) c i v = sputAll s c (setSlice x i v) := by
  unfold sput
  rw [sputAll_x, sputAll_sputAll]

/-- everything but the slices is as before -/
theorem sputAll_shape (s : SObjs) (c : Nat) (x : Nat → Nat → Nat → Word) (k : Nat) : (sputAll s c x k).nrows = (s k).nrows ∧
    (sputAll s c x k).ncols = (s k).ncols ∧ (sputAll s c x k).fid = (s k).fid ∧ (sputAll s c x k).ff = (s k).ff ∧ (sputAll s c x k).depth = (s k).depth := by
  unfold sputAll supd
  split_ifs with h
  · rw [h]; exact ⟨rfl, rfl, rfl, rfl, rfl⟩
  · exact ⟨rfl, rfl, rfl, rfl, rfl⟩

/-- a slice of any object, when other slices of `c` have been changed -/
theorem sputAll_slice {s : SObjs} {c : Nat} {x : Nat → Nat → Nat → Word} {k : Nat} (h : x k = (s c).x k) (a : Nat) :
    (sputAll s c x a).x k = (s a).x k := by
  by_cases ha : a = c
  · rw [ha, sputAll_x, h]
  · rw [sputAll_ne _ ha]

/-- a loop whose steps change different slices of `c`, each of them using only slices with the same number -/
theorem forNM_slices {s : SObjs} {c : Nat} {g : Nat → SObjs → Option SObjs} {F : Nat → SObjs → Nat → Nat → Word} {p : Nat → Nat} (n : Nat)
    (hp : ∀ i j, i < n → j < n → p i = p j → i = j)
    (hg : ∀ i, i < n → ∀ y, g i (sputAll s c y) = some (sputAll s c (setSlice y (p i) (F (p i) (sputAll s c y)))))
    (hF : ∀ k y, y k = (s c).x k → F k (sputAll s c y) = F k s) :
    forNM g n s = some (sputAll s c (fun k => if ∃ i, i < n ∧ p i = k then F k s else (s c).x k)) := by
  induction n with
  | zero =>
    show some s = _
    congr 1
    rw [← sputAll_eta s c, sputAll_sputAll]
    congr 1
    funext k
    rw [if_neg (by rintro ⟨i, hi, -⟩; omega)]
    rw [sputAll_eta]
  | succ n ih =>
    rw [forNM, ih (fun i j hi hj => hp i j (by omega) (by omega)) (fun i hi => hg i (by omega)), Option.bind_some, hg n (by omega)]
    congr 2
    funext k
    unfold setSlice
    by_cases hk : k = p n
    · rw [if_pos hk, if_pos ⟨n, by omega, hk.symm⟩, hk]
      apply hF
      exact if_neg (by rintro ⟨i, hi, hpi⟩; have := hp i n (by omega) (by omega) hpi; omega)
    · rw [if_neg hk]
      beta_reduce
      by_cases h : ∃ i, i < n ∧ p i = k
      · obtain ⟨i, hi, hpi⟩ := h
        rw [if_pos ⟨i, hi, hpi⟩, if_pos ⟨i, by omega, hpi⟩]
      · rw [if_neg h, if_neg]
        rintro ⟨i, hi, hpi⟩
        by_cases hin : i = n
        · exact hk (by rw [← hpi, hin])
        · exact h ⟨i, by omega, hpi⟩

theorem forNM_slices_id {s : SObjs} {c : Nat} {g : Nat → SObjs → Option SObjs} {F : Nat → SObjs → Nat → Nat → Word} (n : Nat)
    (hg : ∀ i, i < n → ∀ y, g i (sputAll s c y) = some (sputAll s c (setSlice y i (F i (sputAll s c y)))))
    (hF : ∀ k y, y k = (s c).x k → F k (sputAll s c y) = F k s) :
    forNM g n s = some (sputAll s c (fun k => if k < n then F k s else (s c).x k)) := by
  rw [forNM_slices (p := id) n (fun _ _ _ _ h => h) hg hF]
  congr 2
  funext k
  have : (∃ i, i < n ∧ id i = k) ↔ k < n := ⟨fun ⟨i, hi, e⟩ => by have e : i = k := e; omega, fun h => ⟨k, h, rfl⟩⟩
  simp only [this]

/-- the object `c` is described by its lowest `degree` slices -/
theorem srep_slices {C : Slice} {MC M : Nat → Nat → Elem ff} (hC : SRep C MC) {v : Nat → Nat → Nat → Word}
    (h : ∀ k, k < ff.degree → ∀ i j, bitAt (v k) i j = (M i j).1.getLsbD k) :
    SRep { C with x := fun k => if k < ff.degree then v k else C.x k } M := by
  refine ⟨hC.ffEq, hC.depthEq, fun k i j => ?_⟩
  show bitAt (if k < ff.degree then v k else C.x k) i j = _
  by_cases hk : k < ff.degree
  · rw [if_pos hk]; exact h k hk i j
  · rw [if_neg hk, hC.bit]
    have hz : ∀ x : Elem ff, x.1.getLsbD k = false := fun x => by
      have := ebit_high (ff := ff) (k := k) (by omega) x
      simpa [ebit] using this
    rw [hz, hz]

/-- after the output has been created (if it was `NULL`) -/
theorem sreceives_output {s : SObjs} {c : Out} {used : List Nat} {m n : Nat} {M0 : Nat → Nat → Elem ff} {F : Slice} (hF : F.ff = ff)
    (h : SReceives s c used F.fid m n M0) : (∀ k, k ≠ c.id → soutput s c F m n k = s k) ∧
      (∀ k ∈ used, soutput s c F m n k = s k) ∧ SRep (soutput s c F m n c.id) M0 ∧
      (soutput s c F m n c.id).nrows = m ∧ (soutput s c F m n c.id).ncols = n ∧ (soutput s c F m n c.id).fid = F.fid := by
  cases c with
  | null k =>
    obtain ⟨h1, rfl⟩ := h
    refine ⟨fun j hj => supd_ne _ hj _, fun j hj => supd_ne _ (fun e => h1 (by have e : j = k := e; rwa [← e])) _, ?_⟩
    have : soutput s (.null k) F m n (Out.null k).id = mzdSliceInit ff F.fid m n := by rw [← hF]; exact supd_self ..
    rw [this]
    refine ⟨?_, rfl, rfl, rfl⟩
    rw [sliceInit_spack]
    exact spack_rep _
  | given k => exact ⟨fun _ _ => rfl, fun _ _ => rfl, h.1, h.2.1, h.2.2.1, h.2.2.2⟩

omit [IsField ff] in
theorem swrites_put {s s1 : SObjs} {c : Out} {fid m n : Nat} {M0 N : Nat → Nat → Elem ff} {x : Nat → Nat → Nat → Word} (h1 : ∀ k, k ≠ c.id → s1 k = s k)
    (hr : (s1 c.id).nrows = m) (hc : (s1 c.id).ncols = n) (hf : (s1 c.id).fid = fid)
    (h : SRep { s1 c.id with x := x } (fun i j => if i < m ∧ j < n then N i j else M0 i j)) :
    SWrites s (sputAll s1 c.id x) c fid m n M0 N :=
  ⟨fun k hk => by rw [sputAll_ne _ hk]; exact h1 k hk, by rw [sputAll_self]; exact hr, by rw [sputAll_self]; exact hc,
    by rw [sputAll_self]; exact hf, by rw [sputAll_self]; exact h⟩

omit [IsField ff] in
theorem swrites_upd {s s1 : SObjs} {c : Out} {fid m n : Nat} {M0 N : Nat → Nat → Elem ff} {R : Slice} (h1 : ∀ k, k ≠ c.id → s1 k = s k)
    (hr : R.nrows = m) (hc : R.ncols = n) (hf : R.fid = fid) (h : SRep R (fun i j => if i < m ∧ j < n then N i j else M0 i j)) :
    SWrites s (supd s1 c.id R) c fid m n M0 N :=
  ⟨fun k hk => by rw [supd_ne _ hk]; exact h1 k hk, by rw [supd_self]; exact hr, by rw [supd_self]; exact hc, by rw [supd_self]; exact hf,
    by rw [supd_self]; exact h⟩

section
variable {s : SObjs} {a b : Nat} {MA MB M0 : Nat → Nat → Elem ff} {c : Out}

/-- **C71** `mzd_slice_copy(B,A)`: also with `B == A`. -/
theorem C71_copy (hA : SRep (s a) MA) (hc : SReceives s c [a] (s a).fid (s a).nrows (s a).ncols M0) :
    ∃ s', scopy? s c a = some s' ∧ SWrites s s' c (s a).fid (s a).nrows (s a).ncols M0 MA := by
  obtain ⟨o1, o2, o3, o4, o5, o6⟩ := sreceives_output hA.ffEq hc
  unfold scopy?
  set s1 := soutput s c (s a) (s a).nrows (s a).ncols with hs1
  have ea : s1 a = s a := o2 a (by simp)
  have h := forNM_slices_id (s := s1) (c := c.id) (g := fun i s =>
    if i < (s c.id).depth ∧ (s a).nrows ≤ (s c.id).nrows ∧ (s a).ncols ≤ (s c.id).ncols then
      some (if c.id = a then s else sput s c.id i (mzdCopy (s a).nrows (s a).ncols ((s c.id).x i) ((s a).x i)))
    else none) (F := fun i s => if c.id = a then (s c.id).x i else mzdCopy (s a).nrows (s a).ncols ((s c.id).x i) ((s a).x i)) (s1 a).depth
    (fun i hi y => by
      obtain ⟨q1, q2, -, -, -⟩ := sputAll_shape s1 c.id y a
      obtain ⟨p1, p2, -, -, p5⟩ := sputAll_shape s1 c.id y c.id
      rw [if_pos ⟨by rw [p5, o3.depthEq]; rw [ea, hA.depthEq] at hi; exact hi, by rw [q1, p1, ea, o4], by rw [q2, p2, ea, o5]⟩]
      congr 1
      by_cases hca : c.id = a
      · rw [if_pos hca, if_pos hca, sputAll_x]
        congr 1
        funext k
        unfold setSlice
        split_ifs with hk
        · rw [hk]
        · rfl
      · rw [if_neg hca, if_neg hca, sput_sputAll])
    (fun k y hy => by
      obtain ⟨q1, q2, -, -, -⟩ := sputAll_shape s1 c.id y a
      simp only [q1, q2, sputAll_slice hy])
  refine ⟨_, h, swrites_put o1 o4 o5 o6 ?_⟩
  rw [ea, hA.depthEq]
  refine srep_slices o3 fun k hk i j => ?_
  by_cases hca : c.id = a
  · rw [if_pos hca]
    have e : s1 c.id = s a := by rw [hca]; exact ea
    rw [e, hA.bit]
    by_cases hij : i < (s a).nrows ∧ j < (s a).ncols
    · rw [if_pos hij]
    · rw [if_neg hij, ← hA.bit, ← e, o3.bit]
  · rw [if_neg hca]
    unfold mzdCopy
    rw [bitAt_ofBits, o3.bit, hA.bit]
    split_ifs <;> rfl

/-- **C71** `mzd_slice_add(C,A,B)`: `C` may be `NULL`, another matrix, `A` or `B`. -/
theorem C71_add (hA : SRep (s a) MA) (hB : SRep (s b) MB) (hd : SSameDim (s b) (s a))
    (hc : SReceives s c [a, b] (s a).fid (s a).nrows (s a).ncols M0) :
    ∃ s', sadd? s c a b = some s' ∧ SWrites s s' c (s a).fid (s a).nrows (s a).ncols M0 (fun i j => MA i j + MB i j) := by
  obtain ⟨o1, o2, o3, o4, o5, o6⟩ := sreceives_output hA.ffEq hc
  unfold sadd?
  rw [if_neg (by have := hd.nrows; have := hd.ncols; have := hd.fid; omega)]
  simp only []
  rw [if_neg (by
    cases c with
    | null k => exact Bool.false_ne_true
    | given k => obtain ⟨-, e1, e2, e3⟩ := hc; simp [e1, e2, e3])]
  set s1 := soutput s c (s a) (s a).nrows (s a).ncols with hs1
  have ea : s1 a = s a := o2 a (by simp)
  have eb : s1 b = s b := o2 b (by simp)
  have hfor : ∀ (g : Nat → SObjs → SObjs) n (t : SObjs), forNM (fun i s => some (g i s)) n t = some (forN g n t) := by
    intro g n t
    induction n with
    | zero => rfl
    | succ n ih => rw [forNM, ih]; rfl
  rw [← hfor]
  have h := forNM_slices (s := s1) (c := c.id) (p := fun i => (s1 a).depth - 1 - i) (g := fun i s => some (sput s c.id ((s1 a).depth - 1 - i)
      (mzdAdd (s a).nrows (s a).ncols ((s c.id).x ((s1 a).depth - 1 - i)) ((s a).x ((s1 a).depth - 1 - i)) ((s b).x ((s1 a).depth - 1 - i)))))
    (F := fun k s => mzdAdd (s a).nrows (s a).ncols ((s c.id).x k) ((s a).x k) ((s b).x k)) (s1 a).depth
    (fun i j hi hj h => by omega)
    (fun i hi y => by rw [sput_sputAll])
    (fun k y hy => by
      obtain ⟨q1, q2, -, -, -⟩ := sputAll_shape s1 c.id y a
      simp only [q1, q2, sputAll_slice hy])
  refine ⟨_, h, swrites_put o1 o4 o5 o6 ?_⟩
  have hx : (fun k => if ∃ i, i < (s1 a).depth ∧ (s1 a).depth - 1 - i = k then mzdAdd (s1 a).nrows (s1 a).ncols ((s1 c.id).x k) ((s1 a).x k) ((s1 b).x k)
      else (s1 c.id).x k) = fun k => if k < ff.degree then mzdAdd (s1 a).nrows (s1 a).ncols ((s1 c.id).x k) ((s1 a).x k) ((s1 b).x k) else (s1 c.id).x k := by
    funext k
    have : (∃ i, i < (s1 a).depth ∧ (s1 a).depth - 1 - i = k) ↔ k < ff.degree := by
      rw [ea, hA.depthEq]
      exact ⟨fun ⟨i, hi, e⟩ => by omega, fun h => ⟨ff.degree - 1 - k, by omega, by omega⟩⟩
    simp only [this]
  rw [hx]
  refine srep_slices o3 fun k hk i j => ?_
  unfold mzdAdd
  rw [bitAt_ofBits, o3.bit, ea, eb, hA.bit, hB.bit]
  by_cases hij : i < (s a).nrows ∧ j < (s a).ncols
  · rw [if_pos hij, if_pos hij, Elem.add_val, BitVec.getLsbD_xor]
  · rw [if_neg hij, if_neg hij]

/-- **C71** `mzd_slice_concat(C,A,B)`. -/
theorem C71_concat (hA : SRep (s a) MA) (hB : SRep (s b) MB) (hr : (s b).nrows = (s a).nrows)
    (hc : SReceives s c [a, b] (s a).fid (s a).nrows ((s a).ncols + (s b).ncols) M0) :
    ∃ s', sconcat? s c a b = some s' ∧ SWrites s s' c (s a).fid (s a).nrows ((s a).ncols + (s b).ncols) M0
      (fun i j => if j < (s a).ncols then MA i j else MB i (j - (s a).ncols)) := by
  obtain ⟨o1, o2, o3, o4, o5, o6⟩ := sreceives_output hA.ffEq hc
  unfold sconcat?
  set s1 := soutput s c (s a) (s a).nrows ((s a).ncols + (s b).ncols) with hs1
  have ea : s1 a = s a := o2 a (by simp)
  have eb : s1 b = s b := o2 b (by simp)
  have h := forNM_slices_id (s := s1) (c := c.id) (g := fun i s =>
    if i < (s b).depth ∧ i < (s c.id).depth ∧ (s a).nrows = (s b).nrows ∧ (s c.id).nrows = (s a).nrows ∧ (s c.id).ncols = (s a).ncols + (s b).ncols then
      some (sput s c.id i (mzdConcat (s a).nrows (s a).ncols (s b).ncols ((s c.id).x i) ((s a).x i) ((s b).x i)))
    else none) (F := fun i s => mzdConcat (s a).nrows (s a).ncols (s b).ncols ((s c.id).x i) ((s a).x i) ((s b).x i)) (s1 a).depth
    (fun i hi y => by
      obtain ⟨q1, q2, -, -, -⟩ := sputAll_shape s1 c.id y a
      obtain ⟨r1, r2, -, -, r5⟩ := sputAll_shape s1 c.id y b
      obtain ⟨p1, p2, -, -, p5⟩ := sputAll_shape s1 c.id y c.id
      rw [ea, hA.depthEq] at hi
      rw [if_pos ⟨by rw [r5, eb, hB.depthEq]; exact hi, by rw [p5, o3.depthEq]; exact hi, by rw [q1, r1, ea, eb, hr], by rw [q1, p1, ea, o4],
        by rw [q2, p2, r2, ea, eb, o5]⟩, sput_sputAll])
    (fun k y hy => by
      obtain ⟨q1, q2, -, -, -⟩ := sputAll_shape s1 c.id y a
      obtain ⟨r1, r2, -, -, -⟩ := sputAll_shape s1 c.id y b
      simp only [q1, q2, r2, sputAll_slice hy])
  refine ⟨_, h, swrites_put o1 o4 o5 o6 ?_⟩
  rw [ea, eb, hA.depthEq]
  refine srep_slices o3 fun k hk i j => ?_
  unfold mzdConcat
  rw [bitAt_ofBits, o3.bit, hA.bit, hB.bit]
  by_cases h1 : i < (s a).nrows <;> by_cases h2 : j < (s a).ncols <;> by_cases h3 : j < (s a).ncols + (s b).ncols <;>
    first | omega | simp [h1, h2, h3]

/-- **C71** `mzd_slice_stack(C,A,B)`. -/
theorem C71_stack (hA : SRep (s a) MA) (hB : SRep (s b) MB) (hn : (s b).ncols = (s a).ncols)
    (hc : SReceives s c [a, b] (s a).fid ((s a).nrows + (s b).nrows) (s a).ncols M0) :
    ∃ s', sstack? s c a b = some s' ∧ SWrites s s' c (s a).fid ((s a).nrows + (s b).nrows) (s a).ncols M0
      (fun i j => if i < (s a).nrows then MA i j else MB (i - (s a).nrows) j) := by
  obtain ⟨o1, o2, o3, o4, o5, o6⟩ := sreceives_output hA.ffEq hc
  unfold sstack?
  set s1 := soutput s c (s a) ((s a).nrows + (s b).nrows) (s a).ncols with hs1
  have ea : s1 a = s a := o2 a (by simp)
  have eb : s1 b = s b := o2 b (by simp)
  have h := forNM_slices_id (s := s1) (c := c.id) (g := fun i s =>
    if i < (s b).depth ∧ i < (s c.id).depth ∧ (s a).ncols = (s b).ncols ∧ (s c.id).nrows = (s a).nrows + (s b).nrows ∧ (s c.id).ncols = (s a).ncols then
      some (sput s c.id i (mzdStack (s a).nrows (s b).nrows (s a).ncols ((s c.id).x i) ((s a).x i) ((s b).x i)))
    else none) (F := fun i s => mzdStack (s a).nrows (s b).nrows (s a).ncols ((s c.id).x i) ((s a).x i) ((s b).x i)) (s1 a).depth
    (fun i hi y => by
      obtain ⟨q1, q2, -, -, -⟩ := sputAll_shape s1 c.id y a
      obtain ⟨r1, r2, -, -, r5⟩ := sputAll_shape s1 c.id y b
      obtain ⟨p1, p2, -, -, p5⟩ := sputAll_shape s1 c.id y c.id
      rw [ea, hA.depthEq] at hi
      rw [if_pos ⟨by rw [r5, eb, hB.depthEq]; exact hi, by rw [p5, o3.depthEq]; exact hi, by rw [q2, r2, ea, eb, hn], by rw [q1, p1, r1, ea, eb, o4],
        by rw [q2, p2, ea, o5]⟩, sput_sputAll])
    (fun k y hy => by
      obtain ⟨q1, q2, -, -, -⟩ := sputAll_shape s1 c.id y a
      obtain ⟨r1, r2, -, -, -⟩ := sputAll_shape s1 c.id y b
      simp only [q1, q2, r1, sputAll_slice hy])
  refine ⟨_, h, swrites_put o1 o4 o5 o6 ?_⟩
  rw [ea, eb, hA.depthEq]
  refine srep_slices o3 fun k hk i j => ?_
  unfold mzdStack
  rw [bitAt_ofBits, o3.bit, hA.bit, hB.bit]
  by_cases h1 : i < (s a).nrows <;> by_cases h2 : j < (s a).ncols <;> by_cases h3 : i < (s a).nrows + (s b).nrows <;>
    first | omega | simp [h1, h2, h3]

/-- **C71** `mzd_slice_submatrix(S,A,lr,lc,hr,hc)`. -/
theorem C71_submatrix (hA : SRep (s a) MA) (lr lc hr hc' : Nat)
    (hc : SReceives s c [a] (s a).fid (hr - lr) (hc' - lc) M0) :
    ∃ s', ssubmatrix? s c a lr lc hr hc' = some s' ∧ SWrites s s' c (s a).fid (hr - lr) (hc' - lc) M0 (fun i j => MA (lr + i) (lc + j)) := by
  obtain ⟨o1, o2, o3, o4, o5, o6⟩ := sreceives_output hA.ffEq hc
  unfold ssubmatrix?
  set s1 := soutput s c (s a) (hr - lr) (hc' - lc) with hs1
  have ea : s1 a = s a := o2 a (by simp)
  have h := forNM_slices_id (s := s1) (c := c.id) (g := fun i s =>
    if i < (s c.id).depth ∧ (s c.id).nrows = hr - lr ∧ (s c.id).ncols = hc' - lc then
      some (sput s c.id i (mzdSubmatrix ((s c.id).x i) ((s a).x i) lr lc hr hc'))
    else none) (F := fun i s => mzdSubmatrix ((s c.id).x i) ((s a).x i) lr lc hr hc') (s1 a).depth
    (fun i hi y => by
      obtain ⟨p1, p2, -, -, p5⟩ := sputAll_shape s1 c.id y c.id
      rw [ea, hA.depthEq] at hi
      rw [if_pos ⟨by rw [p5, o3.depthEq]; exact hi, by rw [p1, o4], by rw [p2, o5]⟩, sput_sputAll])
    (fun k y hy => by simp only [sputAll_slice hy])
  refine ⟨_, h, swrites_put o1 o4 o5 o6 ?_⟩
  rw [ea, hA.depthEq]
  refine srep_slices o3 fun k hk i j => ?_
  unfold mzdSubmatrix
  rw [bitAt_ofBits, o3.bit, hA.bit]
  split_ifs <;> rfl

/-! ### scalars -/

/-- steps on the store that only change the slices of `c` -/
theorem forNM_put {s : SObjs} {c : Nat} {g : Nat → SObjs → Option SObjs} {f : Nat → (Nat → Nat → Nat → Word) → Option (Nat → Nat → Nat → Word)}
    (h : ∀ i x, g i (sputAll s c x) = (f i x).map (sputAll s c)) (n : Nat) (x : Nat → Nat → Nat → Word) :
    forNM g n (sputAll s c x) = (forNM f n x).map (sputAll s c) := by
  induction n with
  | zero => rfl
  | succ n ih =>
    rw [forNM, forNM, ih]
    cases forNM f n x with
    | none => rfl
    | some y => exact h n y

theorem foldlM_put {T : Type} {s : SObjs} {c : Nat} {g : SObjs → T → Option SObjs} {f : (Nat → Nat → Nat → Word) → T → Option (Nat → Nat → Nat → Word)}
    (h : ∀ t x, g (sputAll s c x) t = (f x t).map (sputAll s c)) (l : List T) (x : Nat → Nat → Nat → Word) :
    l.foldlM g (sputAll s c x) = (l.foldlM f x).map (sputAll s c) := by
  induction l generalizing x with
  | nil => rfl
  | cons t l ih =>
    rw [List.foldlM_cons, List.foldlM_cons, h]
    cases f x t with
    | none => rfl
    | some y => exact ih y

theorem smodred_put {s : SObjs} {c : Nat} {A : SObjs → Nat → Nat → Word} {A0 : Nat → Nat → Word} (hA : ∀ y, A (sputAll s c y) = A0) (g : Gf2e)
    (nr nc t : Nat) (x : Nat → Nat → Nat → Word) :
    smodred? g nr nc c A t (sputAll s c x) = (ptrAddModred (some g) nr nc A0 x t).map (sputAll s c) := by
  unfold smodred? ptrAddModred
  rw [hA, sputAll_x]
  by_cases h1 : mzdIsZero nr nc A0 = true
  · rw [if_pos h1, if_pos h1]; rfl
  · rw [if_neg h1, if_neg h1]
    show _ = Option.map _ (if t < g.degree then _ else _)
    by_cases h2 : t < g.degree
    · rw [if_pos h2, if_pos h2, sput_sputAll]; rfl
    · rw [if_neg h2, if_neg h2]
      by_cases h3 : t < 2 * g.degree - 1
      · rw [if_neg (not_not.mpr h3), if_neg (not_not.mpr h3), Option.map_some]
        congr 1
        generalize g.degree = n
        induction n with
        | zero => rfl
        | succ n ih =>
          rw [forN, forN, ih]
          split_ifs with hb
          · rw [sputAll_x, hA, sput_sputAll]
          · rfl
      · rw [if_pos h3, if_pos h3]; rfl

theorem sscalarLoop_store {s : SObjs} {c b : Nat} (hcb : b ≠ c) (hf : (s c).fid = (s b).fid ∧ (s c).nrows = (s b).nrows ∧ (s c).ncols = (s b).ncols)
    (x : Word) : saddmulScalar? s c x b = (mzdSliceAddmulScalar? (s c) x (s b)).map (supd s c) := by
  unfold saddmulScalar? mzdSliceAddmulScalar? sscalarLoop?
  rw [if_pos hf, if_pos hf, Option.map_map]
  have h := forNM_put (s := s) (c := c) (g := fun i s => if x &&& twoPow i ≠ 0#64 then
    forNM (fun j s => smodred? (s b).ff (s b).nrows (s b).ncols c (fun s => (s b).x j) (i + j) s) (s b).depth s else some s)
    (f := fun i y => if x &&& twoPow i ≠ 0#64 then
      forNM (fun j y => ptrAddModred (some (s b).ff) (s b).nrows (s b).ncols ((s b).x j) y (i + j)) (s b).depth y else some y)
    (fun i y => by
      by_cases hx : x &&& twoPow i ≠ 0#64
      · rw [if_pos hx, if_pos hx, sputAll_ne _ hcb]
        refine forNM_put (fun j z => ?_) _ y
        rw [sputAll_ne _ hcb]
        exact smodred_put (fun w => by rw [sputAll_ne _ hcb]) _ _ _ _ _
      · rw [if_neg hx, if_neg hx]; rfl) (s b).ff.degree (s c).x
  rw [sputAll_eta] at h
  exact h

/-- **C71** `mzd_slice_addmul_scalar(C,a,B)`, `C` and `B` different. -/
theorem C71_addmul_scalar {k : Nat} {MC : Nat → Nat → Elem ff} (hk : k ≠ b) (hB : SRep (s b) MB) (hC : SRep (s k) MC) (hd : SSameDim (s k) (s b)) (x : Elem ff) :
    ∃ s', saddmulScalar? s k x.1 b = some s' ∧ SWrites s s' (.given k) (s b).fid (s b).nrows (s b).ncols MC (fun i j => MC i j + x * MB i j) := by
  obtain ⟨R, e, h1, h2⟩ := C46_addmul_scalar hB hC hd x
  rw [sscalarLoop_store (fun e => hk e.symm) ⟨hd.fid, hd.nrows, hd.ncols⟩, e]
  rw [hd.nrows, hd.ncols] at h2
  exact ⟨_, rfl, swrites_upd (c := .given k) (fun _ _ => rfl) (h1.nrows.trans hd.nrows) (h1.ncols.trans hd.ncols) (h1.fid.trans hd.fid) h2⟩

/-- **C71** `mzd_slice_mul_scalar(C,a,B)`: `C` is `NULL` or a matrix different from `B`. -/
theorem C71_mul_scalar (hB : SRep (s b) MB) (hcb : c.id ≠ b) (hc : SReceives s c [b] (s b).fid (s b).nrows (s b).ncols M0) (x : Elem ff) :
    ∃ s', smulScalar? s c x.1 b = some s' ∧ SWrites s s' c (s b).fid (s b).nrows (s b).ncols M0 (fun i j => x * MB i j) := by
  cases c with
  | null k =>
    obtain ⟨h1, rfl⟩ := hc
    obtain ⟨R, e, h2, h3⟩ := C46_mul_scalar_new hB x
    have hbk : b ≠ k := fun e => hcb e.symm
    unfold smulScalar? soutput
    show ∃ s', saddmulScalar? (supd s k _) k x.1 b = some s' ∧ _
    rw [sscalarLoop_store hbk (by rw [supd_self, supd_ne _ hbk]; exact ⟨rfl, rfl, rfl⟩), supd_self, supd_ne _ hbk]
    unfold mzdSliceMulScalarNew? at e
    rw [e]
    exact ⟨_, rfl, swrites_upd (c := .null k) (fun j hj => supd_ne _ hj _) h2.nrows h2.ncols h2.fid h3⟩
  | given k =>
    obtain ⟨h1, e1, e2, e3⟩ := hc
    obtain ⟨R, e, h2, h3⟩ := C46_mul_scalar hB h1 ⟨e1, e2, e3⟩ x
    have hbk : b ≠ k := fun e => hcb e.symm
    unfold smulScalar?
    show ∃ s', saddmulScalar? (supd s k _) k x.1 b = some s' ∧ _
    rw [sscalarLoop_store hbk (by rw [supd_self, supd_ne _ hbk]; exact ⟨e3, e1, e2⟩), supd_self, supd_ne _ hbk]
    unfold mzdSliceMulScalar? at e
    rw [e]
    rw [e1, e2] at h3
    exact ⟨_, rfl, swrites_upd (c := .given k) (fun j hj => supd_ne _ hj _) (h2.nrows.trans e1) (h2.ncols.trans e2) (h2.fid.trans e3) h3⟩

/-! ### products -/

theorem skaraRun_store {s : SObjs} {c a b : Nat} (ha : a ≠ c) (hb : b ≠ c) (g : Gf2e) (m k n : Nat) (terms : List KaraTerm) (x : Nat → Nat → Nat → Word) :
    skaraRun? terms g m k n c a b (sputAll s c x) = (karaRun terms (some g) m k n x (s a).x (s b).x).map (sputAll s c) := by
  unfold skaraRun? karaRun
  refine foldlM_put (fun t y => ?_) terms x
  unfold skaraTerm? KaraTerm.run
  rw [sputAll_ne _ ha, sputAll_ne _ hb, sputAll_x]
  congr 1
  funext z
  exact sputAll_sputAll ..

/-- the case distinction on the degree, for any statements (kept generic so that the kernel does not unfold them) -/
theorem sel_kara {α : Type} (P : α → Prop) {d : Nat} {x2 x0 : α} {f : List KaraTerm → α} (hx : P x2) (hf : ∀ t, P (f t)) :
    2 ≤ d → d ≤ 16 → P (match d with
      | 2 => x2
      | 3 => f karaTerms3
      | 4 => f karaTerms4
      | 5 => f karaTerms5
      | 6 => f karaTerms6
      | 7 => f karaTerms7
      | 8 => f karaTerms8
      | 9 => f karaTerms9
      | 10 => f karaTerms10
      | 11 => f karaTerms11
      | 12 => f karaTerms12
      | 13 => f karaTerms13
      | 14 => f karaTerms14
      | 15 => f karaTerms15
      | 16 => f karaTerms16
      | _ => x0) := by
  intro h2 h16
  interval_cases d
  · exact hx
  all_goals exact hf _

theorem sel_kara_map {α β : Type} (F : β → α) {d : Nat} {x2 x0 : Option α} {y2 : Option β} {f : List KaraTerm → Option α} {g : List KaraTerm → Option β}
    (hx : x2 = y2.map F) (hf : ∀ t, f t = (g t).map F) :
    2 ≤ d → d ≤ 16 → (match d with
      | 2 => x2
      | 3 => f karaTerms3
      | 4 => f karaTerms4
      | 5 => f karaTerms5
      | 6 => f karaTerms6
      | 7 => f karaTerms7
      | 8 => f karaTerms8
      | 9 => f karaTerms9
      | 10 => f karaTerms10
      | 11 => f karaTerms11
      | 12 => f karaTerms12
      | 13 => f karaTerms13
      | 14 => f karaTerms14
      | 15 => f karaTerms15
      | 16 => f karaTerms16
      | _ => x0) = Option.map F (match d with
      | 2 => y2
      | 3 => g karaTerms3
      | 4 => g karaTerms4
      | 5 => g karaTerms5
      | 6 => g karaTerms6
      | 7 => g karaTerms7
      | 8 => g karaTerms8
      | 9 => g karaTerms9
      | 10 => g karaTerms10
      | 11 => g karaTerms11
      | 12 => g karaTerms12
      | 13 => g karaTerms13
      | 14 => g karaTerms14
      | 15 => g karaTerms15
      | 16 => g karaTerms16
      | _ => none) := by
  intro h2 h16
  interval_cases d
  · exact hx
  all_goals exact hf _

theorem saddmulKara_store {s : SObjs} {c a b : Nat} (ha : a ≠ c) (hb : b ≠ c) (hff : (s a).ff = ff) :
    saddmulKara? s c a b = (mzdSliceAddmulKara? (s c) (s a) (s b)).map (supd s c) := by
  have h2 : 2 ≤ ff.degree := IsField.two_le (ff := ff)
  have h16 : ff.degree ≤ 16 := (Fact.out : FFOK ff).min.e16
  have hr : ∀ terms, skaraRun? terms ff (s a).nrows (s a).ncols (s b).ncols c a b s =
      ((karaRun terms (some ff) (s a).nrows (s a).ncols (s b).ncols (s c).x (s a).x (s b).x).map fun x => { s c with x := x }).map (supd s c) := by
    intro terms
    have := skaraRun_store (s := s) ha hb ff (s a).nrows (s a).ncols (s b).ncols terms (s c).x
    rw [sputAll_eta] at this
    rw [this, Option.map_map]
    rfl
  have hr2 : skara2Run? ff (s a).nrows (s a).ncols (s b).ncols c a b s =
      ((kara2Run (some ff) (s a).nrows (s a).ncols (s b).ncols (s c).x (s a).x (s b).x).map fun x => { s c with x := x }).map (supd s c) := by
    unfold skara2Run? kara2Run sput
    rw [skaraRun_store ha hb, Option.map_map]
    rfl
  unfold saddmulKara? mzdSliceAddmulKara?
  simp only [hff]
  rw [if_pos ⟨h2, h16⟩]
  unfold ptrAddmulKaratsuba?
  rw [Option.map_map]
  exact sel_kara_map (fun x => supd s c { s c with x := x }) (hr2.trans (Option.map_map ..)) (fun t => (hr t).trans (Option.map_map ..)) h2 h16

/-- **C71** `mzd_slice_addmul(C,A,B)` (= `mzd_slice_addmul_karatsuba`), `C` different from `A` and `B`. -/
theorem C71_addmul {k : Nat} {MC : Nat → Nat → Elem ff} (hka : a ≠ k) (hkb : b ≠ k) (hA : SRep (s a) MA) (hB : SRep (s b) MB) (hC : SRep (s k) MC)
    (h : SFits (s k) (s a) (s b)) :
    ∃ s', saddmulKaratsuba? s k a b = some s' ∧ SWrites s s' (.given k) (s a).fid (s a).nrows (s b).ncols MC
      (fun i j => MC i j + ∑ t ∈ Finset.range (s a).ncols, MA i t * MB t j) := by
  obtain ⟨_, R, e, h1, h2⟩ := C28_addmul_unchecked hA hB hC h.rows h.cols
  unfold saddmulKaratsuba?
  rw [if_neg (by have := h.inner; have := h.field; tauto), if_neg (by have := h.fieldC; have := h.rows; have := h.cols; tauto),
    saddmulKara_store hka hkb hA.ffEq, e]
  rw [h.rows, h.cols] at h2
  exact ⟨_, rfl, swrites_upd (c := .given k) (fun _ _ => rfl) (h1.nrows.trans h.rows) (h1.ncols.trans h.cols) (h1.fid.trans h.fieldC) h2⟩

/-- **C71** `mzd_slice_mul(C,A,B)` (= `mzd_slice_mul_karatsuba`), `C` is `NULL` or a matrix different from `A` and `B`. -/
theorem C71_mul (hA : SRep (s a) MA) (hB : SRep (s b) MB) (hca : a ≠ c.id) (hcb : b ≠ c.id) (hk : (s a).ncols = (s b).nrows) (hf : (s a).fid = (s b).fid)
    (hc : SReceives s c [a, b] (s a).fid (s a).nrows (s b).ncols M0) :
    ∃ s', smulKaratsuba? s c a b = some s' ∧ SWrites s s' c (s a).fid (s a).nrows (s b).ncols M0
      (fun i j => ∑ t ∈ Finset.range (s a).ncols, MA i t * MB t j) := by
  unfold smulKaratsuba?
  rw [if_neg (by tauto)]
  cases c with
  | null k =>
    have hca : a ≠ k := hca
    have hcb : b ≠ k := hcb
    obtain ⟨h1, rfl⟩ := hc
    obtain ⟨R, e, r1, r2, r3, r4⟩ := C28_mul_new hA hB hk hf
    show ∃ s', saddmulKara? (supd s k _) k a b = some s' ∧ _
    rw [saddmulKara_store (ff := ff) hca hcb (by rw [supd_ne _ hca]; exact hA.ffEq), supd_self, supd_ne _ hca, supd_ne _ hcb]
    unfold mzdSliceMulKaratsubaNew? at e
    rw [if_neg (by tauto)] at e
    rw [e]
    exact ⟨_, rfl, swrites_upd (c := .null k) (fun j hj => supd_ne _ hj _) r1 r2 r3 r4⟩
  | given k =>
    have hca : a ≠ k := hca
    have hcb : b ≠ k := hcb
    obtain ⟨h1, e1, e2, e3⟩ := hc
    obtain ⟨R, e, r1, r4⟩ := C28_mul hA hB h1 ⟨hk, hf, e3, e1, e2⟩
    show ∃ s', (if (s k).fid ≠ (s a).fid ∨ (s k).nrows ≠ (s a).nrows ∨ (s k).ncols ≠ (s b).ncols then none
      else saddmulKara? (supd s k (mzdSliceSetUi (s k) 0#64)) k a b) = some s' ∧ _
    have hn : ¬ ((s k).fid ≠ (s a).fid ∨ (s k).nrows ≠ (s a).nrows ∨ (s k).ncols ≠ (s b).ncols) := by tauto
    rw [if_neg hn, saddmulKara_store (ff := ff) hca hcb (by rw [supd_ne _ hca]; exact hA.ffEq), supd_self, supd_ne _ hca, supd_ne _ hcb]
    unfold mzdSliceMulKaratsuba? at e
    rw [if_neg (by tauto), if_neg hn] at e
    rw [e]
    rw [e1, e2] at r4
    exact ⟨_, rfl, swrites_upd (c := .given k) (fun j hj => supd_ne _ hj _) (r1.nrows.trans e1) (r1.ncols.trans e2) (r1.fid.trans e3) r4⟩

/-- **C71** `mzd_slice_addmul_blm(C,A,B,NULL)`: here `C` may be `A` or `B`. -/
theorem C71_addmul_blm {env : BlmEnv} (henv : BlmEnvOk env) {fuel : Nat} (hfuel : ff.degree * ff.degree ≤ fuel) {k : Nat} {MC : Nat → Nat → Elem ff}
    (hA : SRep (s a) MA) (hB : SRep (s b) MB) (hC : SRep (s k) MC) (h : SFits (s k) (s a) (s b)) :
    ∃ s', saddmulBlm? env fuel s k a b = some s' ∧ SWrites s s' (.given k) (s a).fid (s a).nrows (s b).ncols MC
      (fun i j => MC i j + ∑ t ∈ Finset.range (s a).ncols, MA i t * MB t j) := by
  obtain ⟨R, e, h1, h2⟩ := C54_slice_addmul henv hfuel hA hB hC h
  have e' : saddmulBlm? env fuel s k a b = (mzdSliceAddmulBlm? env fuel (s k) (s a) (s b) none).map (supd s k) := by
    have c1 : ¬ ((s a).ncols ≠ (s b).nrows ∨ (s a).fid ≠ (s b).fid) := by have := h.inner; have := h.field; tauto
    have c2 : ¬ ((s k).fid ≠ (s a).fid ∨ (s k).nrows ≠ (s a).nrows ∨ (s k).ncols ≠ (s b).ncols) := by
      have := h.fieldC; have := h.rows; have := h.cols; tauto
    unfold saddmulBlm? mzdSliceAddmulBlm?
    rw [if_neg c1, if_neg c1, if_neg c2, if_neg c2, Option.map_bind]
    rfl
  rw [e', e]
  rw [h.rows, h.cols] at h2
  exact ⟨_, rfl, swrites_upd (c := .given k) (fun _ _ => rfl) (h1.nrows.trans h.rows) (h1.ncols.trans h.cols) (h1.fid.trans h.fieldC) h2⟩

/-- **C71** `mzd_slice_mul_blm(C,A,B,NULL)`, `C` is `NULL` or a matrix different from `A` and `B`. -/
theorem C71_mul_blm {env : BlmEnv} (henv : BlmEnvOk env) {fuel : Nat} (hfuel : ff.degree * ff.degree ≤ fuel)
    (hA : SRep (s a) MA) (hB : SRep (s b) MB) (hca : a ≠ c.id) (hcb : b ≠ c.id) (hk : (s a).ncols = (s b).nrows) (hf : (s a).fid = (s b).fid)
    (hc : SReceives s c [a, b] (s a).fid (s a).nrows (s b).ncols M0) :
    ∃ s', smulBlm? env fuel s c a b = some s' ∧ SWrites s s' c (s a).fid (s a).nrows (s b).ncols M0
      (fun i j => ∑ t ∈ Finset.range (s a).ncols, MA i t * MB t j) := by
  unfold smulBlm?
  rw [if_neg (by tauto)]
  cases c with
  | null k =>
    have hca : a ≠ k := hca
    have hcb : b ≠ k := hcb
    obtain ⟨h1, rfl⟩ := hc
    have h2 := sliceMulBlmRaw_spack henv hfuel (⟨(s a).nrows, (s b).ncols, (s a).fid, fun _ _ => 0⟩ : Mat ff) ⟨(s a).nrows, (s a).ncols, (s a).fid, MA⟩
      ⟨(s b).nrows, (s b).ncols, (s b).fid, MB⟩ rfl rfl (fun _ _ _ _ => rfl)
    rw [← hA.eq_spack', ← hB.eq_spack', ← sliceInit_spack] at h2
    show ∃ s', (mzdSliceMulBlmRaw? env fuel (supd s k _ k) (supd s k _ a) (supd s k _ b) none).map (supd (supd s k _) k) = some s' ∧ _
    rw [supd_self, supd_ne _ hca, supd_ne _ hcb]
    have e : mzdSliceInit (s a).ff (s a).fid (s a).nrows (s b).ncols = mzdSliceInit ff (s a).fid (s a).nrows (s b).ncols := by rw [hA.ffEq]
    rw [e, h2]
    refine ⟨_, rfl, swrites_upd (c := .null k) (fun j hj => supd_ne _ hj _) rfl rfl rfl ?_⟩
    refine Eq.subst (motive := fun f => SRep _ f) ?_ (spack_rep _)
    funext i j
    show (if i < (s a).nrows ∧ j < (s b).ncols then 0 + ∑ t ∈ Finset.range (s a).ncols, MA i t * MB t j else 0) = _
    rw [zero_add]
  | given k =>
    have hca : a ≠ k := hca
    have hcb : b ≠ k := hcb
    obtain ⟨h1, e1, e2, e3⟩ := hc
    obtain ⟨R, e, r1, r4⟩ := C54_slice_mul henv hfuel hA hB h1 ⟨hk, hf, e3, e1, e2⟩
    have hn : ¬ ((s k).fid ≠ (s a).fid ∨ (s k).nrows ≠ (s a).nrows ∨ (s k).ncols ≠ (s b).ncols) := by tauto
    show ∃ s', (if (s k).fid ≠ (s a).fid ∨ (s k).nrows ≠ (s a).nrows ∨ (s k).ncols ≠ (s b).ncols then none
      else (mzdSliceMulBlmRaw? env fuel (supd s k (mzdSliceSetUi (s k) 0#64) k) (supd s k (mzdSliceSetUi (s k) 0#64) a)
        (supd s k (mzdSliceSetUi (s k) 0#64) b) none).map (supd (supd s k (mzdSliceSetUi (s k) 0#64)) k)) = some s' ∧ _
    rw [if_neg hn, supd_self, supd_ne _ hca, supd_ne _ hcb]
    unfold mzdSliceMulBlm? at e
    rw [if_neg (by tauto), if_neg hn] at e
    rw [e]
    rw [e1, e2] at r4
    exact ⟨_, rfl, swrites_upd (c := .given k) (fun j hj => supd_ne _ hj _) (r1.nrows.trans e1) (r1.ncols.trans e2) (r1.fid.trans e3) r4⟩

end

/-! ### products and scalar multiples in place -/

/-- all bits in range are zero -/
def ZeroBits (nr nc : Nat) (A : Nat → Nat → Word) : Prop := ∀ i j, i < nr → j < nc → bitAt A i j = false

theorem ZeroBits.isZero {nr nc : Nat} {A : Nat → Nat → Word} (h : ZeroBits nr nc A) : mzdIsZero nr nc A = true := by
  unfold mzdIsZero
  simp only [List.all_eq_true, List.mem_range, Bool.not_eq_true']
  exact fun i hi p hp => h i p hi hp

theorem ZeroBits.add {nr nc : Nat} {A B C : Nat → Nat → Word} (hA : ZeroBits nr nc A) (hB : ZeroBits nr nc B) : ZeroBits nr nc (mzdAdd nr nc C A B) := by
  intro i j hi hj
  unfold mzdAdd
  rw [bitAt_ofBits, if_pos ⟨hi, hj⟩, hA i j hi hj, hB i j hi hj]
  rfl

theorem karaOperand_zero {nr nc : Nat} {A : Nat → Nat → Nat → Word} (h : ∀ k, ZeroBits nr nc (A k)) : ∀ l, ZeroBits nr nc (karaOperand nr nc A l)
  | [] => fun i j _ _ => zero_bits i j
  | [i] => h i
  | i :: j :: l => by
    show ZeroBits nr nc (l.foldl _ (mzdAdd nr nc _ (A i) (A j)))
    have : ∀ T, ZeroBits nr nc T → ZeroBits nr nc (l.foldl (fun T k => mzdAdd nr nc T T (A k)) T) := by
      induction l with
      | nil => exact fun _ hT => hT
      | cons k l ih => exact fun T hT => ih _ (hT.add (h k))
    exact this _ ((h i).add (h j))

theorem xorRange_false {g : Nat → Bool} : ∀ n, (∀ l, l < n → g l = false) → xorRange g n = false
  | 0, _ => rfl
  | n + 1, h => by
    show (xorRange g n).xor (g n) = false
    rw [xorRange_false n fun l hl => h l (by omega), h n (by omega)]
    rfl

/-- one of the two factors is zero -/
theorem product_zero {m k n : Nat} {A B : Nat → Nat → Word} (h : ZeroBits m k A ∨ ZeroBits k n B) (i j : Nat) (hi : i < m) (hj : j < n) :
    xorRange (fun l => bitAt A i l && bitAt B l j) k = false :=
  xorRange_false _ fun l hl => by
    rcases h with h | h
    · show (bitAt A i l && _) = false
      rw [h i l hi hl]; rfl
    · show (_ && bitAt B l j) = false
      rw [h l j hl hj, Bool.and_false]

theorem ptrAddToAll_zero {g : Gf2e} {nr nc : Nat} {A : Nat → Nat → Word} (h : ZeroBits nr nc A) (ts : List Nat) (X : Nat → Nat → Nat → Word) :
    ptrAddToAll (some g) nr nc A ts X = some X := by
  unfold ptrAddToAll
  show ts.foldlM _ X = some X
  induction ts with
  | nil => rfl
  | cons t ts ih =>
    rw [List.foldlM_cons]
    have : ptrAddModred (some g) nr nc A X t = some X := by
      unfold ptrAddModred
      rw [if_pos h.isZero]
    rw [this]
    exact ih

theorem skaraRun_zero {s : SObjs} {c a b : Nat} {g : Gf2e} {m k n : Nat} (h : (∀ i, ZeroBits m k ((s a).x i)) ∨ ∀ i, ZeroBits k n ((s b).x i))
    (terms : List KaraTerm) : skaraRun? terms g m k n c a b s = some s := by
  unfold skaraRun?
  induction terms with
  | nil => rfl
  | cons t ts ih =>
    rw [List.foldlM_cons]
    have : skaraTerm? g m k n c a b s t = some s := by
      unfold skaraTerm?
      rw [ptrAddToAll_zero, Option.map_some, sputAll_eta]
      intro i j hi hj
      unfold mzdMul
      rw [bitAt_ofBits, if_pos ⟨hi, hj⟩]
      refine product_zero ?_ i j hi hj
      rcases h with h | h
      · exact Or.inl (karaOperand_zero h _)
      · exact Or.inr (karaOperand_zero h _)
    rw [this]
    exact ih

theorem saddmulKara_zero {s : SObjs} {c a b : Nat} (hff : (s a).ff = ff)
    (h : (∀ i, ZeroBits (s a).nrows (s a).ncols ((s a).x i)) ∨ ∀ i, ZeroBits (s a).ncols (s b).ncols ((s b).x i)) :
    saddmulKara? s c a b = some s := by
  have h2 : 2 ≤ ff.degree := IsField.two_le (ff := ff)
  have h16 : ff.degree ≤ 16 := (Fact.out : FFOK ff).min.e16
  have hr : ∀ terms, skaraRun? terms ff (s a).nrows (s a).ncols (s b).ncols c a b s = some s := fun terms => skaraRun_zero h terms
  have hr2 : skara2Run? ff (s a).nrows (s a).ncols (s b).ncols c a b s = some s := by
    unfold skara2Run?
    have : sput s c 1 (mzdAddmul (s a).nrows (s a).ncols (s b).ncols ((s c).x 1) (mzdAdd (s a).nrows (s a).ncols (fun _ _ => 0#64) ((s a).x 0) ((s a).x 1))
      (mzdAdd (s a).ncols (s b).ncols (fun _ _ => 0#64) ((s b).x 0) ((s b).x 1))) = s := by
      have e : mzdAddmul (s a).nrows (s a).ncols (s b).ncols ((s c).x 1) (mzdAdd (s a).nrows (s a).ncols (fun _ _ => 0#64) ((s a).x 0) ((s a).x 1))
          (mzdAdd (s a).ncols (s b).ncols (fun _ _ => 0#64) ((s b).x 0) ((s b).x 1)) = (s c).x 1 := by
        apply words_ext
        intro i j
        unfold mzdAddmul
        rw [bitAt_ofBits]
        split_ifs with hij
        · rw [product_zero _ i j hij.1 hij.2]
          · simp
          · rcases h with h | h
            · exact Or.inl ((h 0).add (h 1))
            · exact Or.inr ((h 0).add (h 1))
        · rfl
      unfold sput
      rw [e]
      have : setSlice (s c).x 1 ((s c).x 1) = (s c).x := by
        funext k
        unfold setSlice
        split_ifs with hk
        · rw [hk]
        · rfl
      rw [this, sputAll_eta]
    rw [this]
    exact hr karaTerms2
  unfold saddmulKara?
  simp only [hff]
  exact sel_kara (fun o => o = some s) hr2 hr h2 h16

theorem setUi_zeroBits {S : Slice} {M : Nat → Nat → Elem ff} (h : SRep S M) (k : Nat) : ZeroBits S.nrows S.ncols ((mzdSliceSetUi S 0#64).x k) := by
  have h0 := sliceSetUi_zero (⟨S.nrows, S.ncols, S.fid, M⟩ : Mat ff)
  rw [← h.eq_spack'] at h0
  intro i j hi hj
  rw [h0, spack_bit]
  have : ((⟨S.nrows, S.ncols, S.fid, M⟩ : Mat ff).scalar 0).e i j = 0 := by
    refine (if_pos ⟨hi, hj⟩).trans ?_
    split_ifs <;> rfl
  rw [this, elem_zero_bit]

theorem setUi_rep {S : Slice} {M : Nat → Nat → Elem ff} (h : SRep S M) :
    SRep (mzdSliceSetUi S 0#64) (fun i j => if i < S.nrows ∧ j < S.ncols then 0 else M i j) := by
  have h0 := sliceSetUi_zero (⟨S.nrows, S.ncols, S.fid, M⟩ : Mat ff)
  rw [← h.eq_spack'] at h0
  rw [h0]
  refine Eq.subst (motive := fun f => SRep _ f) ?_ (spack_rep _)
  funext i j
  show (if i < S.nrows ∧ j < S.ncols then (if i = j then 0 else 0) else M i j) = _
  simp

section
variable {s : SObjs} {a b k : Nat} {MA MB : Nat → Nat → Elem ff}

/-- **C71, violation** `mzd_slice_mul(A,A,B)` and `mzd_slice_mul(B,A,B)` clear the operand and return the zero matrix. -/
theorem C71_violation_mul (hA : SRep (s a) MA) (hB : SRep (s b) MB) (hk : k = a ∧ (s b).nrows = (s a).ncols ∧ (s b).ncols = (s a).ncols ∨
      k = b ∧ (s a).nrows = (s b).nrows ∧ (s a).ncols = (s b).nrows) (hf : (s a).fid = (s b).fid) :
    ∃ s', smulKaratsuba? s (.given k) a b = some s' ∧ (∀ t, t ≠ k → s' t = s t) ∧ (s' k).nrows = (s k).nrows ∧ (s' k).ncols = (s k).ncols ∧
      ∀ i j, i < (s k).nrows → j < (s k).ncols → mzdSliceReadElem (s' k) i j = 0#64 := by
  have hkM : ∃ M, SRep (ff := ff) (s k) M := by
    rcases hk with ⟨rfl, -⟩ | ⟨rfl, -⟩
    · exact ⟨_, hA⟩
    · exact ⟨_, hB⟩
  obtain ⟨M, hM⟩ := hkM
  refine ⟨supd s k (mzdSliceSetUi (s k) 0#64), ?_, fun t ht => supd_ne _ ht _, by rw [supd_self]; rfl, by rw [supd_self]; rfl, fun i j hi hj => ?_⟩
  · have hff : (supd s k (mzdSliceSetUi (s k) 0#64) a).ff = ff := by
      by_cases h : a = k
      · rw [h, supd_self]; exact hM.ffEq
      · rw [supd_ne _ h]; exact hA.ffEq
    unfold smulKaratsuba?
    rw [if_neg (by rcases hk with ⟨-, h⟩ | ⟨-, h⟩ <;> omega)]
    show (if (s k).fid ≠ (s a).fid ∨ (s k).nrows ≠ (s a).nrows ∨ (s k).ncols ≠ (s b).ncols then none
      else saddmulKara? (supd s k (mzdSliceSetUi (s k) 0#64)) k a b) = _
    rw [if_neg (by rcases hk with ⟨rfl, h⟩ | ⟨rfl, h⟩ <;> simp [h, hf])]
    refine saddmulKara_zero hff ?_
    rcases hk with ⟨rfl, h⟩ | ⟨rfl, h⟩
    · refine Or.inl fun i => ?_
      rw [supd_self]
      exact setUi_zeroBits hA i
    · refine Or.inr fun i => ?_
      have e : (supd s k (mzdSliceSetUi (s k) 0#64) a).ncols = (s k).nrows := by
        by_cases hh : a = k
        · subst hh; rw [supd_self]; exact h.2
        · rw [supd_ne _ hh]; exact h.2
      rw [e, supd_self]
      exact setUi_zeroBits hB i
  · rw [supd_self, C47_read (setUi_rep hM)]
    rw [if_pos ⟨hi, hj⟩]
    rfl

/-- **C71, violation** the same for `mzd_slice_mul_blm(A,A,B,NULL)` and `mzd_slice_mul_blm(B,A,B,NULL)`. -/
theorem C71_violation_mul_blm {env : BlmEnv} (henv : BlmEnvOk env) {fuel : Nat} (hfuel : ff.degree * ff.degree ≤ fuel) (hA : SRep (s a) MA) (hB : SRep (s b) MB)
    (hk : k = a ∧ (s b).nrows = (s a).ncols ∧ (s b).ncols = (s a).ncols ∨ k = b ∧ (s a).nrows = (s b).nrows ∧ (s a).ncols = (s b).nrows)
    (hf : (s a).fid = (s b).fid) :
    ∃ s', smulBlm? env fuel s (.given k) a b = some s' ∧ (∀ t, t ≠ k → s' t = s t) ∧ (s' k).nrows = (s k).nrows ∧ (s' k).ncols = (s k).ncols ∧
      ∀ i j, i < (s k).nrows → j < (s k).ncols → mzdSliceReadElem (s' k) i j = 0#64 := by
  have hkM : ∃ M, SRep (ff := ff) (s k) M := by
    rcases hk with ⟨rfl, -⟩ | ⟨rfl, -⟩
    · exact ⟨_, hA⟩
    · exact ⟨_, hB⟩
  obtain ⟨M, hM⟩ := hkM
  set s1 := supd s k (mzdSliceSetUi (s k) 0#64) with hs1
  have hdim : ∀ t, (s1 t).nrows = (s t).nrows ∧ (s1 t).ncols = (s t).ncols ∧ (s1 t).fid = (s t).fid := by
    intro t
    by_cases h : t = k
    · rw [h, hs1, supd_self]; exact ⟨rfl, rfl, rfl⟩
    · rw [hs1, supd_ne _ h]; exact ⟨rfl, rfl, rfl⟩
  have hrep : ∀ t N, SRep (s t) N → SRep (s1 t) (fun i j => if t = k ∧ i < (s t).nrows ∧ j < (s t).ncols then (0 : Elem ff) else N i j) := by
    intro t N hN
    by_cases h : t = k
    · subst h
      rw [hs1, supd_self]
      simpa using setUi_rep hN
    · rw [hs1, supd_ne _ h]
      simpa [h] using hN
  have h1 := hrep k M hM
  have h2 := hrep a MA hA
  have h3 := hrep b MB hB
  have hd : (s k).nrows = (s a).nrows ∧ (s k).ncols = (s b).ncols := by
    rcases hk with ⟨rfl, h⟩ | ⟨rfl, h⟩
    · exact ⟨rfl, h.2.symm⟩
    · exact ⟨h.1.symm, rfl⟩
  have key := sliceMulBlmRaw_spack henv hfuel (⟨(s1 k).nrows, (s1 k).ncols, (s1 k).fid, fun i j => if k = k ∧ i < (s k).nrows ∧ j < (s k).ncols then 0 else M i j⟩ : Mat ff)
    ⟨(s1 a).nrows, (s1 a).ncols, (s1 a).fid, fun i j => if a = k ∧ i < (s a).nrows ∧ j < (s a).ncols then 0 else MA i j⟩
    ⟨(s1 b).nrows, (s1 b).ncols, (s1 b).fid, fun i j => if b = k ∧ i < (s b).nrows ∧ j < (s b).ncols then 0 else MB i j⟩ (by show (s1 k).nrows = (s1 a).nrows; rw [(hdim k).1, (hdim a).1, hd.1])
    (by show (s1 k).ncols = (s1 b).ncols; rw [(hdim k).2.1, (hdim b).2.1, hd.2])
    (fun i j hi hj => by
      show (if k = k ∧ i < (s k).nrows ∧ j < (s k).ncols then (0 : Elem ff) else M i j) = 0
      exact if_pos ⟨rfl, by rw [← (hdim k).1]; exact hi, by rw [← (hdim k).2.1]; exact hj⟩)
  rw [← h1.eq_spack', ← h2.eq_spack', ← h3.eq_spack'] at key
  unfold smulBlm?
  rw [if_neg (by rcases hk with ⟨-, h⟩ | ⟨-, h⟩ <;> omega)]
  show ∃ s', (if (s k).fid ≠ (s a).fid ∨ (s k).nrows ≠ (s a).nrows ∨ (s k).ncols ≠ (s b).ncols then none
      else (mzdSliceMulBlmRaw? env fuel (s1 k) (s1 a) (s1 b) none).map (supd s1 k)) = some s' ∧ _
  rw [if_neg (by rcases hk with ⟨rfl, h⟩ | ⟨rfl, h⟩ <;> simp [h, hf]), key]
  refine ⟨_, rfl, fun t ht => by rw [supd_ne _ ht, hs1, supd_ne _ ht], by rw [supd_self]; exact (hdim k).1, by rw [supd_self]; exact (hdim k).2.1, fun i j hi hj => ?_⟩
  rw [supd_self, C47_read (spack_rep _)]
  show ((if i < (s1 k).nrows ∧ j < (s1 k).ncols then (if k = k ∧ i < (s k).nrows ∧ j < (s k).ncols then (0 : Elem ff) else M i j) +
    ∑ t ∈ Finset.range (s1 a).ncols, (if a = k ∧ i < (s a).nrows ∧ t < (s a).ncols then (0 : Elem ff) else MA i t) *
      (if b = k ∧ t < (s b).nrows ∧ j < (s b).ncols then (0 : Elem ff) else MB t j) else _ : Elem ff)).1 = 0#64
  rw [if_pos ⟨by rw [(hdim k).1]; exact hi, by rw [(hdim k).2.1]; exact hj⟩, if_pos ⟨rfl, hi, hj⟩, zero_add, Finset.sum_eq_zero]
  · rfl
  · intro t ht
    have ht : t < (s a).ncols := by rw [← (hdim a).2.1]; exact Finset.mem_range.1 ht
    rcases hk with ⟨rfl, h⟩ | ⟨rfl, h⟩
    · rw [if_pos ⟨rfl, hi, ht⟩, zero_mul]
    · rw [if_pos (show k = k ∧ t < (s k).nrows ∧ j < (s k).ncols from ⟨rfl, by omega, hj⟩), mul_zero]

/-- **C46** (negation) when result and operand are the same object, `mzd_slice_mul_scalar(B,a,B)` clears `B` instead of multiplying it. -/
theorem C46_violation_alias (hB : SRep (s b) MB) (x : Elem ff) :
    ∃ s', smulScalar? s (.given b) x.1 b = some s' ∧ (∀ t, t ≠ b → s' t = s t) ∧ SSameDim (s' b) (s b) ∧
      SRep (s' b) (fun i j => if i < (s b).nrows ∧ j < (s b).ncols then 0 else MB i j) := by
  have hz := setUi_zeroBits hB
  refine ⟨supd s b (mzdSliceSetUi (s b) 0#64), ?_, fun t ht => supd_ne _ ht _, by rw [supd_self]; exact ⟨rfl, rfl, rfl⟩, by rw [supd_self]; exact setUi_rep hB⟩
  unfold smulScalar?
  show saddmulScalar? (supd s b (mzdSliceSetUi (s b) 0#64)) b x.1 b = _
  unfold saddmulScalar? sscalarLoop?
  rw [if_pos ⟨rfl, rfl, rfl⟩]
  have hfix : ∀ {g : Nat → SObjs → Option SObjs} {t : SObjs} n, (∀ i, g i t = some t) → forNM g n t = some t := by
    intro g t n h
    induction n with
    | zero => rfl
    | succ n ih => rw [forNM, ih]; exact h n
  refine hfix _ fun i => ?_
  split_ifs
  · refine hfix _ fun j => ?_
    unfold smodred?
    refine if_pos ?_
    show mzdIsZero (supd s b (mzdSliceSetUi (s b) 0#64) b).nrows (supd s b (mzdSliceSetUi (s b) 0#64) b).ncols ((supd s b (mzdSliceSetUi (s b) 0#64) b).x j) = true
    rw [supd_self]
    exact (hz j).isZero
  · rfl

end

/-- the field with 4 elements -/
theorem exists_gf4 : ∃ ff, IsField ff ∧ ff.degree = 2 ∧ ff.powGen 2 = 3#64 := by
  obtain ⟨ff, h1, h2, h3, -⟩ := C05_red_table 7#64 (supported_of_deg (by decide) (by decide))
  have hirr : Irreducible (toPoly (7#64)) := (C09_irreducible 2 7 (by decide)).2
  have hf : IsField ff := isField_of_init (by decide) (by decide) hirr h1
  have hd : ff.degree = 2 := by rw [h2, ← gf2xDeg_natDegree]; decide
  refine ⟨ff, hf, hd, ?_⟩
  rw [(Fact.out : FFOK ff).pow, h3, hd]
  decide

theorem isZero_one (A : Nat → Nat → Word) : mzdIsZero 1 1 A = !bitAt A 0 0 := by simp [mzdIsZero]
theorem mul_one_bit (C A B : Nat → Nat → Word) : bitAt (mzdMul 1 1 1 C A B) 0 0 = (bitAt A 0 0 && bitAt B 0 0) := by
  unfold mzdMul; rw [bitAt_ofBits]; simp [xorRange]
theorem addmul_one_bit (C A B : Nat → Nat → Word) : bitAt (mzdAddmul 1 1 1 C A B) 0 0 = (bitAt C 0 0).xor (bitAt A 0 0 && bitAt B 0 0) := by
  unfold mzdAddmul; rw [bitAt_ofBits]; simp [xorRange]
theorem add_one_bit (C A B : Nat → Nat → Word) : bitAt (mzdAdd 1 1 C A B) 0 0 = (bitAt A 0 0).xor (bitAt B 0 0) := by
  unfold mzdAdd; rw [bitAt_ofBits]; simp

theorem setSlice_self (x : Nat → Nat → Nat → Word) (i : Nat) (v : Nat → Nat → Word) : setSlice x i v i = v := if_pos rfl

theorem setSlice_ne (x : Nat → Nat → Nat → Word) {i j : Nat} (h : j ≠ i) (v : Nat → Nat → Word) : setSlice x i v j = x j := if_neg h

/-- **C71, violation** accumulating in place is wrong: over GF(4), `mzd_slice_addmul(A,A,B)` with `A = [1]`, `B = [x]` leaves `[x]` instead of
`1 + 1*x`, and `mzd_slice_addmul_scalar(A,x,A)` leaves `[0]` instead of `1 + x*1`. -/
theorem C71_violation_addmul {ff : Gf2e} [IsField ff] (hd : ff.degree = 2) (hp : ff.powGen 2 = 3#64) {s : SObjs} {a b : Nat} (hab : b ≠ a)
    {MA MB : Nat → Nat → Elem ff} (hA : SRep (s a) MA) (hB : SRep (s b) MB) (da : (s a).nrows = 1 ∧ (s a).ncols = 1) (db : (s b).nrows = 1 ∧ (s b).ncols = 1)
    (hf : (s a).fid = (s b).fid) (va : (MA 0 0).1 = 1#64) (vb : (MB 0 0).1 = 2#64) :
    (∃ s', saddmulKaratsuba? s a a b = some s' ∧ mzdSliceReadElem (s' a) 0 0 = 2#64) ∧
    (∃ s', saddmulScalar? s a 2#64 a = some s' ∧ mzdSliceReadElem (s' a) 0 0 = 0#64) ∧
    (MA 0 0 + MA 0 0 * MB 0 0).1 = 3#64 ∧ (MA 0 0 + MB 0 0 * MA 0 0).1 = 3#64 := by
  have a0 : bitAt ((s a).x 0) 0 0 = true := by rw [hA.bit, va]; decide
  have a1 : bitAt ((s a).x 1) 0 0 = false := by rw [hA.bit, va]; decide
  have b0 : bitAt ((s b).x 0) 0 0 = false := by rw [hB.bit, vb]; decide
  have b1 : bitAt ((s b).x 1) 0 0 = true := by rw [hB.bit, vb]; decide
  have h1 : MA 0 0 = 1 := Elem.ext' va
  have hs : (MA 0 0 + MA 0 0 * MB 0 0).1 = 3#64 := by
    rw [h1, one_mul, Elem.add_val, vb, ← h1, va]
    decide
  have hread : ∀ t : SObjs, (t a).depth = 2 → ∀ b0 b1, bitAt ((t a).x 0) 0 0 = b0 → bitAt ((t a).x 1) 0 0 = b1 →
      mzdSliceReadElem (t a) 0 0 = (if b0 then 1#64 else 0#64) ||| (if b1 then 2#64 else 0#64) := by
    intro t ht b0 b1 h0 h1
    unfold mzdSliceReadElem
    rw [ht]
    simp only [forN, h0, h1]
    cases b0 <;> cases b1 <;> decide
  have hdep : ∀ x, (sputAll s a x a).depth = 2 := fun x => by rw [(sputAll_shape s a x a).2.2.2.2, hA.depthEq, hd]
  refine ⟨?_, ?_, hs, by rw [mul_comm]; exact hs⟩
  · have key : skara2Run? ff 1 1 1 a a b s = saddmulKara? s a a b := by
      unfold saddmulKara?
      simp only [hA.ffEq, hd, da.1, da.2, db.2]
    unfold saddmulKaratsuba?
    rw [if_neg (by rw [da.2, db.1]; simp [hf]), if_neg (by rw [da.2, db.2]; simp), ← key]
    unfold skara2Run? sput
    set x1 := setSlice (s a).x 1 (mzdAddmul 1 1 1 ((s a).x 1) (mzdAdd 1 1 (fun _ _ => 0#64) ((s a).x 0) ((s a).x 1))
      (mzdAdd 1 1 (fun _ _ => 0#64) ((s b).x 0) ((s b).x 1))) with hx1
    have p0 : bitAt (x1 0) 0 0 = true := by rw [hx1, setSlice_ne _ (by decide)]; exact a0
    have p1 : bitAt (x1 1) 0 0 = true := by
      rw [hx1, setSlice_self, addmul_one_bit, add_one_bit, add_one_bit, a0, a1, b0, b1]
      rfl
    have t1 : skaraTerm? ff 1 1 1 a a b (sputAll s a x1) ⟨[0], [0], [0, 1]⟩ = some (sputAll s a x1) := by
      unfold skaraTerm?
      rw [ptrAddToAll_zero, sputAll_x, Option.map_some, sputAll_sputAll]
      intro i j hi hj
      have : i = 0 ∧ j = 0 := by omega
      rw [this.1, this.2, mul_one_bit, sputAll_ne _ hab]
      show (_ && bitAt ((s b).x 0) 0 0) = false
      rw [b0, Bool.and_false]
    set P := mzdMul 1 1 1 (fun _ _ => 0#64) (x1 1) ((s b).x 1) with hP
    have hP1 : bitAt P 0 0 = true := by rw [hP, mul_one_bit, p1, b1]; rfl
    have hnz : ¬ mzdIsZero 1 1 P = true := by rw [isZero_one, hP1]; simp
    set x2 := setSlice x1 1 (mzdAdd 1 1 (x1 1) (x1 1) P) with hx2
    have q0 : bitAt (x2 0) 0 0 = true := by rw [hx2, setSlice_ne _ (by decide)]; exact p0
    have q1 : bitAt (x2 1) 0 0 = false := by
      rw [hx2, setSlice_self, add_one_bit, p1, hP1]; rfl
    set x3 := setSlice x2 0 (mzdAdd 1 1 (x2 0) (x2 0) P) with hx3
    set x4 := setSlice x3 1 (mzdAdd 1 1 (x3 1) (x3 1) P) with hx4
    have r0 : bitAt (x4 0) 0 0 = false := by
      rw [hx4, setSlice_ne _ (by decide), hx3, setSlice_self, add_one_bit, q0, hP1]; rfl
    have r1 : bitAt (x4 1) 0 0 = true := by
      rw [hx4, setSlice_self, hx3, setSlice_ne _ (by decide), add_one_bit, q1, hP1]; rfl
    have m1 : ptrAddModred (some ff) 1 1 P x1 1 = some x2 := by
      unfold ptrAddModred
      rw [if_neg hnz]
      show (if 1 < ff.degree then _ else _) = _
      rw [if_pos (by omega)]
    have m2 : ptrAddModred (some ff) 1 1 P x2 2 = some x4 := by
      unfold ptrAddModred
      rw [if_neg hnz]
      show (if 2 < ff.degree then _ else if ¬ 2 < 2 * ff.degree - 1 then none else _) = _
      rw [if_neg (by omega), if_neg (by omega), hd, hp]
      have c0 : 3#64 &&& twoPow 0 ≠ 0#64 := by decide
      have c1 : 3#64 &&& twoPow 1 ≠ 0#64 := by decide
      rw [forN, forN, forN, if_pos c0, if_pos c1]
    have t2 : skaraTerm? ff 1 1 1 a a b (sputAll s a x1) ⟨[1], [1], [1, 2]⟩ = some (sputAll s a x4) := by
      unfold skaraTerm? ptrAddToAll
      rw [sputAll_x, sputAll_ne _ hab]
      show Option.map _ (List.foldlM (fun X t => ptrAddModred (some ff) 1 1 P X t) x1 [1, 2]) = _
      rw [List.foldlM_cons, m1]
      show Option.map _ (List.foldlM (fun X t => ptrAddModred (some ff) 1 1 P X t) x2 [2]) = _
      rw [List.foldlM_cons, m2]
      show some (sputAll (sputAll s a x1) a x4) = _
      rw [sputAll_sputAll]
    refine ⟨sputAll s a x4, ?_, ?_⟩
    · unfold skaraRun? karaTerms2
      rw [List.foldlM_cons, t1]
      show List.foldlM _ (sputAll s a x1) _ = _
      rw [List.foldlM_cons, t2]
      rfl
    · rw [hread _ (hdep x4) false true (by rw [sputAll_x]; exact r0) (by rw [sputAll_x]; exact r1)]
      decide
  · set x1 := setSlice (s a).x 1 (mzdAdd 1 1 ((s a).x 1) ((s a).x 1) ((s a).x 0)) with hx1
    have p0 : bitAt (x1 0) 0 0 = true := by rw [hx1, setSlice_ne _ (by decide)]; exact a0
    have p1 : bitAt (x1 1) 0 0 = true := by
      rw [hx1, setSlice_self, add_one_bit, a0, a1]; rfl
    set x2 := setSlice x1 0 (mzdAdd 1 1 (x1 0) (x1 0) (x1 1)) with hx2
    set x3 := setSlice x2 1 (mzdAdd 1 1 (x2 1) (x2 1) (x2 1)) with hx3
    have r0 : bitAt (x3 0) 0 0 = false := by
      rw [hx3, setSlice_ne _ (by decide), hx2, setSlice_self, add_one_bit, p0, p1]; rfl
    have r1 : bitAt (x3 1) 0 0 = false := by
      rw [hx3, setSlice_self, hx2, setSlice_ne _ (by decide), add_one_bit, p1]; rfl
    have m1 : smodred? ff 1 1 a (fun s => (s a).x 0) 1 s = some (sputAll s a x1) := by
      unfold smodred?
      rw [if_neg (by rw [isZero_one, a0]; simp), if_pos (by omega)]
      rfl
    have m2 : smodred? ff 1 1 a (fun s => (s a).x 1) 2 (sputAll s a x1) = some (sputAll s a x3) := by
      unfold smodred?
      rw [if_neg (by rw [isZero_one]; beta_reduce; rw [sputAll_x, p1]; simp), if_neg (by omega), if_neg (by omega), hd, hp]
      have c0 : 3#64 &&& twoPow 0 ≠ 0#64 := by decide
      have c1 : 3#64 &&& twoPow 1 ≠ 0#64 := by decide
      simp only [forN, if_pos c0, if_pos c1, sput_sputAll, sputAll_x]
      rfl
    have hloop : sscalarLoop? s a 2#64 a = some (sputAll s a x3) := by
      unfold sscalarLoop?
      rw [hA.ffEq, hd]
      have i0 : ¬ (2#64 &&& twoPow 0 ≠ 0#64) := by decide
      have i1 : 2#64 &&& twoPow 1 ≠ 0#64 := by decide
      rw [forNM, forNM, forNM, Option.bind_some, if_neg i0, Option.bind_some, if_pos i1, hA.depthEq, hd]
      rw [forNM, forNM, forNM, Option.bind_some, hA.ffEq, da.1, da.2]
      rw [show (1 + 0) = 1 from rfl, m1, Option.bind_some]
      obtain ⟨q1, q2, -, q4, -⟩ := sputAll_shape s a x1 a
      rw [q1, q2, q4, hA.ffEq, da.1, da.2]
      exact m2
    refine ⟨sputAll s a x3, ?_, ?_⟩
    · unfold saddmulScalar?
      rw [if_pos ⟨rfl, rfl, rfl⟩]
      exact hloop
    · rw [hread _ (hdep x3) false false (by rw [sputAll_x]; exact r0) (by rw [sputAll_x]; exact r1)]
      decide

/-! ### wrong shapes die -/

/-- **C71** operands or outputs of the wrong shape, or over another field, die. -/
theorem C71_dies {env : BlmEnv} {fuel : Nat} {s : SObjs} {a b k : Nat} (x : Word) (lr lc hr hc : Nat) (hda : 0 < (s a).depth) :
    (¬ SSameDim (s a) (s b) ∨ ¬ SSameDim (s a) (s k) → sadd? s (.given k) a b = none) ∧
    (¬ SSameDim (s k) (s b) → saddmulScalar? s k x b = none ∧ smulScalar? s (.given k) x b = none) ∧
    (¬ SFits (s k) (s a) (s b) → smulKaratsuba? s (.given k) a b = none ∧ saddmulKaratsuba? s k a b = none ∧
      smulBlm? env fuel s (.given k) a b = none ∧ saddmulBlm? env fuel s k a b = none) ∧
    ((s k).nrows < (s a).nrows ∨ (s k).ncols < (s a).ncols → scopy? s (.given k) a = none) ∧
    ((s a).nrows ≠ (s b).nrows ∨ (s k).nrows ≠ (s a).nrows ∨ (s k).ncols ≠ (s a).ncols + (s b).ncols → sconcat? s (.given k) a b = none) ∧
    ((s a).ncols ≠ (s b).ncols ∨ (s k).nrows ≠ (s a).nrows + (s b).nrows ∨ (s k).ncols ≠ (s a).ncols → sstack? s (.given k) a b = none) ∧
    ((s k).nrows < hr - lr ∨ (s k).ncols < hc - lc → ssubmatrix? s (.given k) a lr lc hr hc = none) := by
  have first : ∀ {g : Nat → SObjs → Option SObjs} {t : SObjs} n, 0 < n → g 0 t = none → forNM g n t = none := by
    intro g t n hn h
    induction n with
    | zero => omega
    | succ n ih =>
      rw [forNM]
      by_cases h0 : n = 0
      · subst h0; exact h
      · rw [ih (by omega)]; rfl
  refine ⟨fun h => ?_, fun h => ?_, fun h => ?_, fun h => ?_, fun h => ?_, fun h => ?_, fun h => ?_⟩
  · unfold sadd?
    by_cases h1 : (s a).fid ≠ (s b).fid ∨ (s a).nrows ≠ (s b).nrows ∨ (s a).ncols ≠ (s b).ncols
    · exact if_pos h1
    · refine (if_neg h1).trans (if_pos ?_)
      push Not at h1
      rcases h with h | h
      · exact absurd ⟨h1.2.1, h1.2.2, h1.1⟩ h
      · by_contra h2
        apply h
        simp only [Bool.or_eq_true, decide_eq_true_eq, not_or, not_not, ne_eq] at h2
        exact ⟨h2.1.2, h2.2, h2.1.1⟩
  · have h1 : saddmulScalar? s k x b = none := by
      unfold saddmulScalar?
      exact if_neg fun hh => h ⟨hh.2.1, hh.2.2, hh.1⟩
    refine ⟨h1, ?_⟩
    unfold smulScalar? saddmulScalar?
    refine if_neg fun hh => h ?_
    have e : (Out.given k).id = k := rfl
    rw [e] at hh
    simp only [supd_self] at hh
    have hbk : b ≠ k := by rintro rfl; exact h ⟨rfl, rfl, rfl⟩
    rw [supd_ne _ hbk] at hh
    exact ⟨hh.2.1, hh.2.2, hh.1⟩
  · by_cases h1 : (s a).ncols ≠ (s b).nrows ∨ (s a).fid ≠ (s b).fid
    · exact ⟨if_pos h1, if_pos h1, if_pos h1, if_pos h1⟩
    · by_cases h2 : (s k).fid ≠ (s a).fid ∨ (s k).nrows ≠ (s a).nrows ∨ (s k).ncols ≠ (s b).ncols
      · exact ⟨(if_neg h1).trans (if_pos h2), (if_neg h1).trans (if_pos h2), (if_neg h1).trans (if_pos h2), (if_neg h1).trans (if_pos h2)⟩
      · push Not at h1 h2
        exact absurd ⟨h1.1, h1.2, h2.1, h2.2.1, h2.2.2⟩ h
  · exact first _ hda (if_neg fun hh => by have := hh.2.1; have := hh.2.2; have e : (Out.given k).id = k := rfl; simp only [soutput, e] at *; omega)
  · exact first _ hda (if_neg fun hh => by have e : (Out.given k).id = k := rfl; simp only [soutput, e] at *; omega)
  · exact first _ hda (if_neg fun hh => by have e : (Out.given k).id = k := rfl; simp only [soutput, e] at *; omega)
  · exact first _ hda (if_neg fun hh => by have e : (Out.given k).id = k := rfl; simp only [soutput, e] at *; omega)

/-! ### instances -/

-- two matrices over GF(4), the operands of `C71_violation_addmul`; `C71_add` and `C71_addmul_blm` in place, all others with a new output
example : ∃ ff, ∃ _ : IsField ff, ff.degree = 2 ∧ ff.powGen 2 = 3#64 ∧ ∃ (s : SObjs) (MA MB : Nat → Nat → Elem ff), SRep (s 0) MA ∧ SRep (s 1) MB ∧
    (s 0).nrows = 1 ∧ (s 0).ncols = 1 ∧ (s 1).nrows = 1 ∧ (s 1).ncols = 1 ∧ (s 0).fid = (s 1).fid ∧ (MA 0 0).1 = 1#64 ∧ (MB 0 0).1 = 2#64 ∧
    SFits (s 0) (s 0) (s 1) ∧ SReceives s (.given 0) [0, 1] (s 0).fid 1 1 MA ∧ SReceives s (.null 5) [0, 1] (s 0).fid 1 1 (fun _ _ => (0 : Elem ff)) := by
  obtain ⟨ff, h, hd, hp⟩ := exists_gf4
  exact ⟨ff, h, hd, hp, fun k => if k = 0 then Mat.spack (ff := ff) ⟨1, 1, 0, fun _ _ => 1⟩ else Mat.spack (ff := ff) ⟨1, 1, 0, fun _ _ => xi⟩, _, _,
    spack_rep _, spack_rep _, (rfl : 1 = 1), (rfl : 1 = 1), (rfl : 1 = 1), (rfl : 1 = 1), (rfl : 0 = 0), rfl, rfl, ⟨(rfl : 1 = 1), (rfl : 0 = 0), (rfl : 0 = 0), (rfl : 1 = 1), (rfl : 1 = 1)⟩, ⟨spack_rep _, (rfl : 1 = 1), (rfl : 1 = 1), (rfl : 0 = 0)⟩, ⟨by simp, rfl⟩⟩

-- `C46_violation_alias` is a violation: over any field `1 * B` is `B`, not zero
example : ∃ ff, ∃ _ : IsField ff, ∃ (s : SObjs) (MB : Nat → Nat → Elem ff), SRep (s 0) MB ∧ 0 < (s 0).nrows ∧ 70 ≤ (s 0).ncols ∧ ∀ i j, 1 * MB i j ≠ 0 := by
  obtain ⟨ff, h, hd⟩ := exists_aes
  exact ⟨ff, h, fun _ => Mat.spack (ff := ff) ⟨3, 70, 0, fun _ _ => 1⟩, _, spack_rep _, by show 0 < 3; omega, by show 70 ≤ 70; omega, fun i j => by simp⟩

end M4rie.Props
