import Verif.Spec.Blm
import Verif.Proofs.KaraMul

/-! Applying a bilinear map: `_mzd_ptr_apply_blm_mzd` and `_mzd_ptr_apply_blm_djb`. -/

namespace M4rie
open Finset M4rie.Spec

theorem bitAt_zeroW (i p : Nat) : bitAt zeroW i p = false := by
  unfold bitAt zeroW; simp

theorem blmSelect_bits (F : Mzd) (i nr nc : Nat) (A : Nat → Nat → Nat → Word) {r c : Nat} (h : r < nr ∧ c < nc) :
    bitAt (blmSelect F i nr nc A) r c = ∑ a ∈ range F.ncols, bitAt F.w i a * bitAt (A a) r c := by
  unfold blmSelect
  induction F.ncols with
  | zero => rw [forN, bitAt_zeroW]; rfl
  | succ n ih =>
    rw [forN, sum_range_succ, ← ih]
    by_cases hb : bitAt F.w i n = true
    · rw [if_pos hb, bitAt_mzdAdd, if_pos h, hb]
      exact congrArg _ (one_mul (bitAt (A n) r c)).symm
    · rw [if_neg hb]
      rw [Bool.not_eq_true] at hb
      rw [hb]
      exact (add_zero (bitAt _ r c)).symm.trans (congrArg _ (zero_mul (bitAt (A n) r c)).symm)

/-- one bit of the value of a bilinear map -/
def blmBit (f : Blm) (K : Nat) (A B : Nat → Nat → Nat → Word) (j r c : Nat) : Bool :=
  ∑ i ∈ range f.F.nrows, bitAt f.H.w j i * ∑ l ∈ range K,
    (∑ a ∈ range f.F.ncols, bitAt f.F.w i a * bitAt (A a) r l) * (∑ b ∈ range f.G.ncols, bitAt f.G.w i b * bitAt (B b) l c)

theorem ptrApplyBlmMzd_bits {f : Blm} (h1 : f.H.ncols = f.F.nrows) (h2 : f.F.nrows = f.G.nrows) (m K n : Nat)
    (X A B : Nat → Nat → Nat → Word) : ∃ X', ptrApplyBlmMzd? f m K n X A B = some X' ∧
      ∀ j r c, bitAt (X' j) r c = bitAt (X j) r c + decide (r < m ∧ c < n ∧ j < f.H.nrows) * blmBit f K A B j r c := by
  obtain ⟨X', e, hX⟩ := forNM_bits (n := f.F.nrows) (f := fun i X =>
    let t0 := mzdMul m K n zeroW (blmSelect f.F i m K A) (blmSelect f.G i K n B)
    forNM (fun j X => if bitAt f.H.w j i then ptrAddModred none m n t0 X j else some X) f.H.nrows X)
    (δ := fun i j r c => decide (r < m ∧ c < n ∧ j < f.H.nrows) * (bitAt f.H.w j i * ∑ l ∈ range K,
    (∑ a ∈ range f.F.ncols, bitAt f.F.w i a * bitAt (A a) r l) * (∑ b ∈ range f.G.ncols, bitAt f.G.w i b * bitAt (B b) l c))) (by
    intro i hi X
    obtain ⟨X', e, hX⟩ := forNM_bits (n := f.H.nrows) (f := fun j X => if bitAt f.H.w j i then ptrAddModred none m n
        (mzdMul m K n zeroW (blmSelect f.F i m K A) (blmSelect f.G i K n B)) X j else some X)
      (δ := fun a j r c => decide (j = a) * (decide (r < m ∧ c < n) * (bitAt f.H.w j i * ∑ l ∈ range K,
      (∑ a ∈ range f.F.ncols, bitAt f.F.w i a * bitAt (A a) r l) * (∑ b ∈ range f.G.ncols, bitAt f.G.w i b * bitAt (B b) l c)))) (by
      intro j hj X
      by_cases hb : bitAt f.H.w j i = true
      · obtain ⟨X', e, h⟩ := ptrAddModred_bits (ff := none) m n (mzdMul m K n zeroW (blmSelect f.F i m K A) (blmSelect f.G i K n B)) X
          (t := j) (fun f hf => by cases hf)
        refine ⟨X', by rw [if_pos hb, e], fun k r c => ?_⟩
        rw [h]
        refine congrArg (bitAt (X k) r c + ·) ?_
        show (_ && decide (k = j)) = _
        rw [Bool.and_comm]
        by_cases hk : k = j
        · subst hk
          by_cases hr : r < m ∧ c < n
          · rw [mzdMul_bits _ _ _ _ _ _ hr, hb]
            refine congrArg₂ (· && ·) rfl (congrArg₂ (· && ·) rfl ?_)
            refine Eq.trans ?_ (one_mul _).symm
            refine sum_congr rfl fun l hl => ?_
            rw [mem_range] at hl
            rw [blmSelect_bits _ _ _ _ _ ⟨hr.1, hl⟩, blmSelect_bits _ _ _ _ _ ⟨hl, hr.2⟩]
          · rw [decide_eq_false hr]
            exact congrArg₂ (· && ·) rfl ((zero_mul _).trans (zero_mul _).symm)
        · rw [decide_eq_false hk]
          exact (zero_mul _).trans (zero_mul _).symm
      · refine ⟨X, by rw [if_neg hb], fun k r c => ?_⟩
        rw [Bool.not_eq_true] at hb
        by_cases hk : k = j
        · subst hk
          rw [hb]
          show _ = _ + _ * (_ * (0 * _))
          rw [zero_mul, mul_zero, mul_zero, add_zero]
        · rw [decide_eq_false hk]
          show _ = _ + 0 * _
          rw [zero_mul, add_zero]) X
    refine ⟨X', e, fun k r c => ?_⟩
    rw [hX]
    refine congrArg (bitAt (X k) r c + ·) ?_
    rw [← sum_mul]
    have : (∑ a ∈ range f.H.nrows, decide (k = a) : Bool) = decide (k < f.H.nrows) := by
      by_cases hk : k < f.H.nrows
      · rw [decide_eq_true hk, sum_eq_single k]
        · simp
        · intro b _ hb
          rw [decide_eq_false (Ne.symm hb)]; rfl
        · intro hh; exact absurd (mem_range.2 hk) hh
      · rw [decide_eq_false hk]
        refine sum_eq_zero fun a ha => ?_
        rw [mem_range] at ha
        rw [decide_eq_false (by omega)]; rfl
    rw [this, ← mul_assoc]
    congr 1
    show (decide (k < f.H.nrows) && decide (r < m ∧ c < n)) = _
    rw [← Bool.decide_and]
    exact decide_eq_decide.2 (by tauto)) X
  refine ⟨X', ?_, fun j r c => ?_⟩
  · unfold ptrApplyBlmMzd?
    rw [if_neg (not_not.2 ⟨h1, h2⟩)]
    exact e
  · rw [hX, ← mul_sum]; rfl

theorem bitAt_mzdCopy (nr nc : Nat) (C A : Nat → Nat → Word) (i p : Nat) :
    bitAt (mzdCopy nr nc C A) i p = if i < nr ∧ p < nc then bitAt A i p else bitAt C i p := by
  unfold mzdCopy; rw [bitAt_ofBits]

/-- the targets of a program -/
def djbTargets (prog : List DjbOp) (t : Nat) : Prop := ∃ o ∈ prog, o.target = t

instance (prog : List DjbOp) (t : Nat) : Decidable (djbTargets prog t) := inferInstanceAs (Decidable (∃ o ∈ prog, o.target = t))

theorem djb_foldr (nr nc : Nat) (V W0 : Nat → Nat → Nat → Word) (prog : List DjbOp)
    (hw : ∀ l o l', prog = l ++ o :: l' → o.fromSource = false → ∃ o' ∈ l', o'.target = o.source) (t : Nat) :
    ((prog.foldr (fun o s => djbStep nr nc V s o) (fun _ => true, W0)).1 t = false ↔ djbTargets prog t) ∧
    (¬ djbTargets prog t → (prog.foldr (fun o s => djbStep nr nc V s o) (fun _ => true, W0)).2 t = W0 t ∧
      ∀ v, prog.foldr (djbBit v) (fun _ => false) t = false) ∧
    (∀ r c, ¬ (r < nr ∧ c < nc) → bitAt ((prog.foldr (fun o s => djbStep nr nc V s o) (fun _ => true, W0)).2 t) r c = bitAt (W0 t) r c) ∧
    (∀ r c, (r < nr ∧ c < nc) → djbTargets prog t →
      bitAt ((prog.foldr (fun o s => djbStep nr nc V s o) (fun _ => true, W0)).2 t) r c =
        prog.foldr (djbBit fun j => bitAt (V j) r c) (fun _ => false) t) := by
  induction prog generalizing t with
  | nil =>
    refine ⟨by simp [djbTargets], fun _ => ⟨rfl, fun _ => rfl⟩, fun _ _ _ => rfl, ?_⟩
    intro r c _ h
    simp [djbTargets] at h
  | cons o l ih =>
    have ihw := ih (fun l1 o1 l2 e => hw (o :: l1) o1 l2 (by rw [e]; rfl))
    have hsrc := hw [] o l rfl
    rw [List.foldr_cons]
    set s := l.foldr (fun o s => djbStep nr nc V s o) (fun _ => true, W0) with hs
    have htc : djbTargets (o :: l) t ↔ t = o.target ∨ djbTargets l t := by
      unfold djbTargets
      simp only [List.mem_cons, exists_eq_or_imp]
      rw [eq_comm]
    have hd : ∀ v, (o :: l).foldr (djbBit v) (fun _ => false) t = if t = o.target then (l.foldr (djbBit v) (fun _ => false) t).xor
        (if o.fromSource then v o.source else l.foldr (djbBit v) (fun _ => false) o.source) else l.foldr (djbBit v) (fun _ => false) t := by
      intro v; rfl
    by_cases ht : t = o.target
    · subst ht
      have hsb : ∀ r c, r < nr ∧ c < nc → bitAt (if o.fromSource then V o.source else s.2 o.source) r c =
          if o.fromSource then bitAt (V o.source) r c else l.foldr (djbBit fun j => bitAt (V j) r c) (fun _ => false) o.source := by
        intro r c hrc
        by_cases hf : o.fromSource = true
        · rw [if_pos hf, if_pos hf]
        · rw [if_neg hf, if_neg hf]
          rw [Bool.not_eq_true] at hf
          exact (ihw o.source).2.2.2 r c hrc (hsrc hf)
      obtain ⟨i1, i2, i3, i4⟩ := ihw o.target
      unfold djbStep
      by_cases hz : s.1 o.target = true
      · have hnt : ¬ djbTargets l o.target := fun h => by rw [i1.2 h] at hz; cases hz
        obtain ⟨i5, i6⟩ := i2 hnt
        simp only [hz, if_true]
        refine ⟨⟨fun _ => htc.2 (Or.inl rfl), fun _ => by simp⟩, fun h => absurd (htc.2 (Or.inl rfl)) h, fun r c hrc => ?_, fun r c hrc _ => ?_⟩
        · unfold setSlice
          rw [if_pos rfl, bitAt_mzdCopy, if_neg hrc, i5]
        · unfold setSlice
          rw [if_pos rfl, bitAt_mzdCopy, if_pos hrc, hsb r c hrc, hd, if_pos rfl, i6, Bool.false_xor]
      · have htt : djbTargets l o.target := i1.1 (by simpa using hz)
        rw [Bool.not_eq_true] at hz
        rw [if_neg (by rw [hz]; simp)]
        refine ⟨⟨fun _ => htc.2 (Or.inl rfl), fun _ => hz⟩, fun h => absurd (htc.2 (Or.inl rfl)) h, fun r c hrc => ?_, fun r c hrc _ => ?_⟩
        · show bitAt (setSlice _ _ _ _) r c = _
          unfold setSlice
          rw [if_pos rfl, bitAt_mzdAdd, if_neg hrc, i3 r c hrc]
        · show bitAt (setSlice _ _ _ _) r c = _
          unfold setSlice
          rw [if_pos rfl, bitAt_mzdAdd, if_pos hrc, hsb r c hrc, hd, if_pos rfl, i4 r c hrc htt]
    · obtain ⟨i1, i2, i3, i4⟩ := ihw t
      have htc' : djbTargets (o :: l) t ↔ djbTargets l t := by rw [htc]; tauto
      have e1 : (djbStep nr nc V s o).1 t = s.1 t := by
        unfold djbStep
        by_cases hz : s.1 o.target = true
        · simp only [hz, if_true]; rw [if_neg ht]
        · rw [if_neg hz]
      have e2 : (djbStep nr nc V s o).2 t = s.2 t := by
        unfold djbStep
        by_cases hz : s.1 o.target = true
        · simp only [hz, if_true]; unfold setSlice; rw [if_neg ht]
        · rw [if_neg hz]; exact if_neg ht
      rw [e1, e2, htc']
      refine ⟨i1, fun h => ⟨(i2 h).1, fun v => ?_⟩, i3, fun r c hrc h => ?_⟩
      · rw [hd, if_neg ht]; exact (i2 h).2 v
      · rw [hd, if_neg ht]; exact i4 r c hrc h

/-- `djb_apply_mzd_ptr`: the targets are overwritten with `F*V`, the others keep their old contents -/
theorem djbApplyPtr_bits {nr0 nc0 : Nat} {F : Nat → Nat → Word} {prog : List DjbOp} (hp : DjbComputes nr0 nc0 F prog) (nr nc : Nat)
    (W V : Nat → Nat → Nat → Word) (t r c : Nat) (ht : t < nr0) :
    bitAt (djbApplyPtr nr nc prog W V t) r c = if r < nr ∧ c < nc ∧ djbTargets prog t then
      ∑ j ∈ range nc0, bitAt F t j * bitAt (V j) r c else bitAt (W t) r c := by
  obtain ⟨_, h2, h3, h4⟩ := djb_foldr nr nc V W prog hp.written t
  unfold djbApplyPtr
  rw [List.foldl_reverse]
  by_cases hrc : r < nr ∧ c < nc
  · by_cases hT : djbTargets prog t
    · rw [if_pos ⟨hrc.1, hrc.2, hT⟩, h4 r c hrc hT, hp.eval _ t ht, xorRange_sum]; rfl
    · rw [if_neg (by tauto), (h2 hT).1]
  · rw [if_neg (by tauto), h3 r c hrc]

theorem djb_untargeted {nr nc : Nat} {F : Nat → Nat → Word} {prog : List DjbOp} (hp : DjbComputes nr nc F prog) {t : Nat} (ht : t < nr)
    (h : ¬ djbTargets prog t) (v : Nat → Bool) : ∑ j ∈ range nc, bitAt F t j * v j = 0 := by
  obtain ⟨_, h2, _, _⟩ := djb_foldr 0 0 (fun _ => zeroW) (fun _ => zeroW) prog hp.written t
  have := (h2 h).2 v
  rw [hp.eval v t ht, xorRange_sum] at this
  exact this

theorem djb_other {nr nc : Nat} {F : Nat → Nat → Word} {prog : List DjbOp} (hp : DjbComputes nr nc F prog) {t : Nat} (ht : ¬ t < nr) (nr' nc' : Nat)
    (W V : Nat → Nat → Nat → Word) : djbApplyPtr nr' nc' prog W V t = W t := by
  obtain ⟨_, h2, _, _⟩ := djb_foldr nr' nc' V W prog hp.written t
  unfold djbApplyPtr
  rw [List.foldl_reverse]
  exact (h2 fun ⟨o, ho, e⟩ => ht (e ▸ hp.target o ho)).1

/-- from zeroed targets -/
theorem djbApplyPtr_zero {nr0 nc0 : Nat} {F : Nat → Nat → Word} {prog : List DjbOp} (hp : DjbComputes nr0 nc0 F prog) (nr nc : Nat)
    (V : Nat → Nat → Nat → Word) {t r c : Nat} (ht : t < nr0) (h : r < nr ∧ c < nc) :
    bitAt (djbApplyPtr nr nc prog (fun _ => zeroW) V t) r c = ∑ j ∈ range nc0, bitAt F t j * bitAt (V j) r c := by
  rw [djbApplyPtr_bits hp nr nc _ V t r c ht]
  by_cases hT : djbTargets prog t
  · rw [if_pos ⟨h.1, h.2, hT⟩]
  · rw [if_neg (by tauto), djb_untargeted hp ht hT, bitAt_zeroW]; rfl

theorem ptrApplyBlmDjb_bits {f : Blm} (h1 : f.H.ncols = f.F.nrows) (h2 : f.F.nrows = f.G.nrows) {pf pg ph : List DjbOp}
    (hf : DjbComputes f.F.nrows f.F.ncols f.F.w pf) (hg : DjbComputes f.G.nrows f.G.ncols f.G.w pg)
    (hh : DjbComputes f.H.nrows f.H.ncols f.H.w ph) (m K n : Nat)
    (X A B : Nat → Nat → Nat → Word) : ∃ X', ptrApplyBlmDjb? f pf pg ph m K n X A B = some X' ∧
      ∀ j r c, bitAt (X' j) r c = if r < m ∧ c < n ∧ djbTargets ph j then blmBit f K A B j r c else bitAt (X j) r c := by
  refine ⟨_, by unfold ptrApplyBlmDjb?; rw [if_neg (not_not.2 ⟨h1, h2⟩)], fun j r c => ?_⟩
  by_cases hj : j < f.H.nrows
  · rw [djbApplyPtr_bits hh m n _ _ j r c hj]
    by_cases hr : r < m ∧ c < n ∧ djbTargets ph j
    · rw [if_pos hr, if_pos hr]
      unfold blmBit
      rw [h1]
      refine sum_congr rfl fun i hi => congrArg (bitAt f.H.w j i * ·) ?_
      rw [mem_range] at hi
      rw [mzdMul_bits _ _ _ _ _ _ ⟨hr.1, hr.2.1⟩]
      refine sum_congr rfl fun l hl => ?_
      rw [mem_range] at hl
      rw [djbApplyPtr_zero hf m K A hi ⟨hr.1, hl⟩, djbApplyPtr_zero hg K n B (h2 ▸ hi) ⟨hl, hr.2.1⟩]
    · rw [if_neg hr, if_neg hr]
  · rw [djb_other hh hj, if_neg fun h => hj ?_]
    obtain ⟨o, ho, e⟩ := h.2.2
    exact e ▸ hh.target o ho

/-- an untargeted row of `H` is zero -/
theorem blmBit_untargeted {f : Blm} (h1 : f.H.ncols = f.F.nrows) {ph : List DjbOp} (hh : DjbComputes f.H.nrows f.H.ncols f.H.w ph)
    (K : Nat) (A B : Nat → Nat → Nat → Word) {j : Nat} (hj : j < f.H.nrows) (h : ¬ djbTargets ph j) (r c : Nat) :
    blmBit f K A B j r c = 0 := by
  have := djb_untargeted hh hj h fun i => ∑ l ∈ range K,
    (∑ a ∈ range f.F.ncols, bitAt f.F.w i a * bitAt (A a) r l) * (∑ b ∈ range f.G.ncols, bitAt f.G.w i b * bitAt (B b) l c)
  rw [h1] at this
  exact this

theorem blmValue_bit (f : Blm) (m K n : Nat) (A B : Nat → Nat → Nat → Word) (j : Nat) (r : Fin m) (c : Fin n) :
    blmValue f m K n A B j r c = gf2 (blmBit f K A B j r c) := by
  unfold blmValue blmBit
  rw [← gf2Hom_apply, map_sum, Matrix.sum_apply]
  refine sum_congr rfl fun i _ => ?_
  rw [map_mul, Matrix.smul_apply, smul_eq_mul, map_sum]
  refine congrArg (gf2Entry f.H.w j i * ·) ?_
  rw [Matrix.mul_apply, ← Fin.sum_univ_eq_sum_range (fun l => gf2Hom ((∑ a ∈ range f.F.ncols, bitAt f.F.w i a * bitAt (A a) r l) *
    (∑ b ∈ range f.G.ncols, bitAt f.G.w i b * bitAt (B b) l c)))]
  refine Finset.sum_congr rfl fun l _ => ?_
  rw [map_mul, map_sum, map_sum, Matrix.sum_apply, Matrix.sum_apply]
  simp only [map_mul, Matrix.smul_apply, smul_eq_mul]
  rfl

end M4rie
