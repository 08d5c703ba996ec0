import Verif.Proofs.BlocksFree
/-! # Changes of depth, arrays of temporaries -/
namespace M4rie.Mem

variable {A : Alloc}

theorem take_length_le {xs : List Nat} {n d : Nat} (h : xs.length = d) (hn : n ≤ d) : (xs.take n).length = n := by
  rw [List.length_take]; omega

/-- the effect of a change of depth from `d` to `n` on the array at `a`: the common entries stay, the entries of released objects become NULL -/
def Cells (m m' : Mem) (a n d : Nat) : Prop :=
  (∀ j v, j < n → j < d → Has m a j v → Has m' a j v) ∧ ∀ j, n ≤ j → j < d → Has m' a j 0

theorem sliceAdaptDepth_post {m a k d n l} (h : SliceAt m a k d l) (hn : n ≤ 16) :
    Post true (sliceAdaptDepth A a n) m fun _ m' => Cells m m' a n d ∧ ∃ l', SliceAt m' a k n l' ∧ Changes m l l' m' := by
  obtain ⟨hb, hs, hd, hk, he, xs, hl, hF, hp⟩ := h
  have hnd : (a :: xs).Nodup := hp.nodup_iff.2 hb.1
  obtain ⟨ha, hxs⟩ := List.nodup_cons.1 hnd
  have mem : ∀ z, z ∈ l ↔ z = a ∨ z ∈ xs := fun z => by rw [← hp.mem_iff, List.mem_cons]
  unfold sliceAdaptDepth
  refine post_bind (post_load hd ?_)
  by_cases c : n < d
  · rw [if_pos c]
    refine post_bind (post_loop (fun i m' => (∀ b, b ≠ a → b ∉ (xs.drop n).take i → m' b = m b) ∧ (∀ b ∈ (xs.drop n).take i, m' b = none) ∧
      Size m' a 20 ∧ (∀ j v, Has m a j v → (j < n ∨ n + i ≤ j) → Has m' a j v) ∧ ∀ j, n ≤ j → j < n + i → Has m' a j 0) (d - n)
      ⟨fun b _ _ => rfl, fun b hb' => (by rw [List.take_zero] at hb'; cases hb'), hs, fun j v hj _ => hj, fun j h1 h2 => absurd h2 (by omega)⟩ ?_ ?_)
    · rintro i hi m' ⟨h1, h2, h3, h4, h5⟩
      obtain ⟨x, hx⟩ := getElem?_of_lt hl (show n + i < d by omega)
      have hxd : (xs.drop n)[i]? = some x := by rw [List.getElem?_drop]; exact hx
      have hxm : x ∈ xs := List.mem_of_getElem? hx
      have hxa : x ≠ a := fun e => ha (by rw [← e]; exact hxm)
      have hnt : x ∉ (xs.drop n).take i := not_mem_take (hxs.sublist (List.drop_sublist _ _)) hxd
      refine post_bind (post_load (h4 _ _ (hF _ _ hx).1 (.inr (Nat.le_refl _))) ?_)
      refine post_bind (post_mzdFree (by rw [h1 x hxa hnt]; exact (hF _ _ hx).2.live) fun m1 d1 => ?_)
      refine post_write (h3.congr (d1.other a hxa.symm)) (by omega) fun m2 w2 => ?_
      rw [take_succ hxd]
      refine ⟨?_, ?_, w2.size _ _ (h3.congr (d1.other a hxa.symm)), ?_, ?_⟩
      · intro b hba hbn
        rw [List.mem_append, List.mem_singleton, not_or] at hbn
        rw [w2.other b hba, d1.other b hbn.2, h1 b hba hbn.1]
      · intro b hbm
        have hba : b ≠ a := by
          intro e
          rw [e] at hbm
          rw [List.mem_append, List.mem_singleton] at hbm
          rcases hbm with c' | c'
          · exact ha (List.mem_of_mem_drop (List.mem_of_mem_take c'))
          · exact hxa c'.symm
        rw [w2.other b hba]
        by_cases e : b = x
        · rw [e]; exact d1.self
        · rw [d1.other b e]
          rw [List.mem_append, List.mem_singleton] at hbm
          rcases hbm with c' | c'
          · exact h2 b c'
          · exact absurd c' e
      · intro j v hj hc
        refine w2.keep _ _ _ ((h4 j v hj (by omega)).congr (d1.other a hxa.symm)) (.inr (by omega))
      · intro j hj1 hj2
        by_cases e : j = n + i
        · rw [e]; exact w2.here
        · exact w2.keep _ _ _ ((h5 j hj1 (by omega)).congr (d1.other a hxa.symm)) (.inr e)
    · rintro m' ⟨h1, h2, h3, h4, h5⟩
      have ht : (xs.drop n).take (d - n) = xs.drop n := by
        rw [List.take_of_length_le]; rw [List.length_drop]; omega
      rw [ht] at h1 h2
      refine post_write h3 (by decide) fun m2 w2 => ?_
      have hxa : ∀ x ∈ xs, x ≠ a := fun x hx e => ha (by rw [← e]; exact hx)
      have hsub : ∀ x ∈ xs.take n, x ∈ xs := fun x hx => List.mem_of_mem_take hx
      have hdis : ∀ x ∈ xs.take n, x ∉ xs.drop n := by
        intro x hx hx'
        have := hxs
        rw [← List.take_append_drop n xs] at this
        exact (List.nodup_append.1 this).2.2 x hx x hx' rfl
      have keep : ∀ x ∈ xs.take n, m2 x = m x := fun x hx => by rw [w2.other x (hxa x (hsub x hx)), h1 x (hxa x (hsub x hx)) (hdis x hx)]
      refine ⟨⟨fun j v h6 h7 hj => w2.keep _ _ _ (h4 j v hj (.inl h6)) (.inr (by omega)),
        fun j h6 h7 => w2.keep _ _ _ (h5 j h6 (by omega)) (.inr (by omega))⟩, a :: xs.take n, ⟨⟨?_, ?_⟩, w2.size _ _ h3, w2.here, w2.keep _ _ _ (h4 _ _ hk (.inr (by omega))) (.inr (by decide)), hn,
        xs.take n, take_length_le hl (by omega), ?_, List.Perm.refl _⟩, ?_, ?_, ?_⟩
      · exact List.nodup_cons.2 ⟨fun c' => ha (hsub a c'), hxs.sublist (List.take_sublist _ _)⟩
      · intro b hbm
        rcases List.mem_cons.1 hbm with c' | c'
        · rw [c']; exact ⟨(hb.2 a ((mem a).2 (.inl rfl))).1, w2.still⟩
        · rw [keep b c']; exact hb.2 b ((mem b).2 (.inr (hsub b c')))
      · intro i x hx
        have hxm := List.mem_of_getElem? hx
        have hin : i < n := by
          rcases Nat.lt_or_ge i n with c' | c'
          · exact c'
          · rw [List.getElem?_take, if_neg (by omega)] at hx; cases hx
        rw [List.getElem?_take, if_pos hin] at hx
        refine ⟨w2.keep _ _ _ (h4 _ _ (hF i x hx).1 (.inl hin)) (.inr (by omega)), (hF i x hx).2.congr (keep x hxm)⟩
      · intro b hb1 hb2
        rcases List.mem_cons.1 hb1 with c' | c'
        · exact absurd ((mem b).2 (.inl c')) hb2
        · exact absurd ((mem b).2 (.inr (hsub b c'))) hb2
      · intro b hb1 hb2
        rw [List.mem_cons, not_or] at hb2
        rcases (mem b).1 hb1 with c' | c'
        · exact absurd c' hb2.1
        · rw [← List.take_append_drop n xs, List.mem_append] at c'
          rcases c' with c' | c'
          · exact absurd c' hb2.2
          · rw [w2.other b hb2.1]; exact h2 b c'
      · intro b hb1 hb2
        rw [mem, not_or] at hb1
        rw [w2.other b hb1.1, h1 b hb1.1 (fun c' => hb1.2 (List.mem_of_mem_drop c'))]
  · rw [if_neg c]
    refine post_bind (post_loop (fun i m' => ∃ ys, ys.length = i ∧ Filled m' a 0 1 (xs ++ ys) ∧ Size m' a 20 ∧ Has m' a 18 d ∧ Has m' a 19 k ∧
      ys.Nodup ∧ (∀ y ∈ ys, m y = none ∧ y ≠ 0) ∧ ∀ b, b ≠ a → b ∉ ys → m' b = m b) (n - d)
      ⟨[], rfl, by rw [List.append_nil]; intro i x hx; rw [Nat.zero_add]; exact hF i x hx, hs, hd, hk, List.nodup_nil,
        fun y hy => (by cases hy), fun b _ _ => rfl⟩ ?_ ?_)
    · rintro i hi m' ⟨ys, hyl, hF', hs', hd', hk', hyn, hyo, ho⟩
      refine post_bind (post_mzdInit fun x m1 n1 => ?_)
      refine post_write (n1.size hs') (by omega) fun m2 w2 => ?_
      have hxa : x ≠ a := (n1.ne hs'.live).symm
      have hxy : x ∉ ys := by
        intro hc
        exact (hF'.size_of (List.mem_append_right _ hc)).live n1.free
      have e0 : 0 + (xs ++ ys).length = d + i := by rw [Nat.zero_add, List.length_append]; omega
      refine ⟨ys ++ [x], by rw [List.length_append, hyl]; rfl, ?_, w2.size _ _ (n1.size hs'), w2.keep _ _ _ (n1.has hd') (.inr (by omega)),
        w2.keep _ _ _ (n1.has hk') (.inr (by omega)), ?_, ?_, ?_⟩
      · rw [← List.append_assoc]
        exact (hF'.new n1).push (by rw [e0]; exact w2) n1.mySize
      · exact List.nodup_append.2 ⟨hyn, List.nodup_singleton x, fun y hy z hz e => hxy (by rw [List.mem_singleton] at hz; rw [← hz, ← e]; exact hy)⟩
      · intro y hy
        rw [List.mem_append, List.mem_singleton] at hy
        rcases hy with c' | c'
        · exact hyo y c'
        · rw [c']; exact ⟨by rw [← ho x hxa hxy]; exact n1.free, n1.ne0⟩
      · intro b hba hbn
        rw [List.mem_append, List.mem_singleton, not_or] at hbn
        rw [w2.other b hba, n1.other b hbn.2, ho b hba hbn.1]
    · rintro m' ⟨ys, hyl, hF', hs', hd', hk', hyn, hyo, ho⟩
      refine post_write hs' (by decide) fun m2 w2 => ?_
      have hya : ∀ y ∈ ys, y ∉ a :: xs := by
        intro y hy hc
        have := (hb.2 y (hp.mem_iff.1 hc)).2
        exact this (hyo y hy).1
      have e2 : m2 a ≠ none := w2.still
      refine ⟨⟨fun j v h6 h7 hj => ?_, fun j h6 h7 => absurd h7 (by omega)⟩, a :: (xs ++ ys), ⟨⟨?_, ?_⟩, w2.size _ _ hs', w2.here, w2.keep _ _ _ hk' (.inr (by decide)), hn, xs ++ ys,
        by rw [List.length_append]; omega, ?_, List.Perm.refl _⟩, ?_, ?_, ?_⟩
      · obtain ⟨x, hx⟩ := getElem?_of_lt hl h7
        have hv := hj.val_eq (hF j x hx).1
        subst hv
        have := hF' j v (by rw [List.getElem?_append_left (by omega)]; exact hx)
        rw [Nat.zero_add] at this
        exact w2.keep _ _ _ this.1 (.inr (by omega))
      · rw [← List.cons_append]
        exact List.nodup_append.2 ⟨hnd, hyn, fun x hx y hy e => hya y hy (by rw [← e]; exact hx)⟩
      · intro b hbm
        rcases List.mem_cons.1 hbm with c' | c'
        · rw [c']; exact ⟨(hb.2 a ((mem a).2 (.inl rfl))).1, e2⟩
        · refine ⟨?_, (w2.size _ _ (hF'.size_of c')).live⟩
          rcases List.mem_append.1 c' with c'' | c''
          · exact (hb.2 b ((mem b).2 (.inr c''))).1
          · exact (hyo b c'').2
      · intro i x hx
        have hil : i < (xs ++ ys).length := by
          rcases Nat.lt_or_ge i (xs ++ ys).length with c' | c'
          · exact c'
          · rw [List.getElem?_eq_none c'] at hx; cases hx
        rw [List.length_append] at hil
        have := hF' i x hx
        rw [Nat.zero_add] at this
        exact ⟨w2.keep _ _ _ this.1 (.inr (by omega)), w2.size _ _ this.2⟩
      · intro b hb1 hb2
        rw [mem, not_or] at hb2
        rcases List.mem_cons.1 hb1 with c' | c'
        · exact absurd c' hb2.1
        · rcases List.mem_append.1 c' with c'' | c''
          · exact absurd c'' hb2.2
          · exact (hyo b c'').1
      · intro b hb1 hb2
        rw [List.mem_cons, List.mem_append, not_or, not_or] at hb2
        rcases (mem b).1 hb1 with c' | c'
        · exact absurd c' hb2.1
        · exact absurd c' hb2.2.1
      · intro b hb1 hb2
        rw [List.mem_cons, List.mem_append, not_or, not_or] at hb2
        rw [w2.other b hb2.1, ho b hb2.1 hb2.2.2]

theorem polyAdaptDepth_post {m a d n c l} (h : PolyAt m a d c l) (hn : n ≤ c) :
    Post true (polyAdaptDepth A a n) m fun _ m' => (∃ p, Has m a 0 p ∧ Has m' a 0 p ∧ Cells m m' p n d) ∧ ∃ l', PolyAt m' a n c l' ∧ Changes m l l' m' := by
  obtain ⟨hb, hs, hd, hdc, p, xs, hx0, hsx, hl, hF, hp⟩ := h
  have hnd : (a :: p :: xs).Nodup := hp.nodup_iff.2 hb.1
  obtain ⟨ha, hnd'⟩ := List.nodup_cons.1 hnd
  obtain ⟨hpn, hxs⟩ := List.nodup_cons.1 hnd'
  rw [List.mem_cons, not_or] at ha
  have mem : ∀ z, z ∈ l ↔ z = a ∨ z = p ∨ z ∈ xs := fun z => by rw [← hp.mem_iff, List.mem_cons, List.mem_cons]
  unfold polyAdaptDepth
  refine post_bind (post_load hd ?_)
  by_cases cn : n < d
  · rw [if_pos cn]
    refine post_bind (post_loop (fun i m' => (∀ b, b ≠ p → b ∉ (xs.drop n).take i → m' b = m b) ∧ (∀ b ∈ (xs.drop n).take i, m' b = none) ∧
      Size m' p c ∧ (∀ j v, Has m p j v → (j < n ∨ n + i ≤ j) → Has m' p j v) ∧ ∀ j, n ≤ j → j < n + i → Has m' p j 0) (d - n)
      ⟨fun b _ _ => rfl, fun b hb' => (by rw [List.take_zero] at hb'; cases hb'), hsx, fun j v hj _ => hj, fun j h1 h2 => absurd h2 (by omega)⟩ ?_ ?_)
    · rintro i hi m' ⟨h1, h2, h3, h4, h5⟩
      obtain ⟨x, hx⟩ := getElem?_of_lt hl (show n + i < d by omega)
      have hxd : (xs.drop n)[i]? = some x := by rw [List.getElem?_drop]; exact hx
      have hxm : x ∈ xs := List.mem_of_getElem? hx
      have hxp : x ≠ p := fun e => hpn (by rw [← e]; exact hxm)
      have hxa : a ≠ x := fun e => ha.2 (by rw [e]; exact hxm)
      have hnt : x ∉ (xs.drop n).take i := not_mem_take (hxs.sublist (List.drop_sublist _ _)) hxd
      have hat : a ∉ (xs.drop n).take i := fun c' => ha.2 (List.mem_of_mem_drop (List.mem_of_mem_take c'))
      have ha0 : Has m' a 0 p := hx0.congr (h1 a ha.1 hat)
      refine post_bind (post_load ha0 ?_)
      refine post_bind (post_load (h4 _ _ (hF _ _ hx).1 (.inr (Nat.le_refl _))) ?_)
      refine post_bind (post_mzdFree (by rw [h1 x hxp hnt]; exact (hF _ _ hx).2.live) fun m1 d1 => ?_)
      refine post_bind (post_load (ha0.congr (d1.other a hxa)) ?_)
      refine post_write (h3.congr (d1.other p hxp.symm)) (by omega) fun m2 w2 => ?_
      rw [take_succ hxd]
      refine ⟨?_, ?_, w2.size _ _ (h3.congr (d1.other p hxp.symm)), ?_, ?_⟩
      · intro b hba hbn
        rw [List.mem_append, List.mem_singleton, not_or] at hbn
        rw [w2.other b hba, d1.other b hbn.2, h1 b hba hbn.1]
      · intro b hbm
        have hba : b ≠ p := by
          intro e
          rw [e] at hbm
          rw [List.mem_append, List.mem_singleton] at hbm
          rcases hbm with c' | c'
          · exact hpn (List.mem_of_mem_drop (List.mem_of_mem_take c'))
          · exact hxp c'.symm
        rw [w2.other b hba]
        by_cases e : b = x
        · rw [e]; exact d1.self
        · rw [d1.other b e]
          rw [List.mem_append, List.mem_singleton] at hbm
          rcases hbm with c' | c'
          · exact h2 b c'
          · exact absurd c' e
      · intro j v hj hc
        refine w2.keep _ _ _ ((h4 j v hj (by omega)).congr (d1.other p hxp.symm)) (.inr (by omega))
      · intro j hj1 hj2
        by_cases e : j = n + i
        · rw [e]; exact w2.here
        · exact w2.keep _ _ _ ((h5 j hj1 (by omega)).congr (d1.other p hxp.symm)) (.inr e)
    · rintro m' ⟨h1, h2, h3, h4, h5⟩
      have ht : (xs.drop n).take (d - n) = xs.drop n := by
        rw [List.take_of_length_le]; rw [List.length_drop]; omega
      rw [ht] at h1 h2
      have had : a ∉ xs.drop n := fun c' => ha.2 (List.mem_of_mem_drop c')
      refine post_write (hs.congr (h1 a ha.1 had)) (by decide) fun m2 w2 => ?_
      have hxp : ∀ x ∈ xs, x ≠ p := fun x hx e => hpn (by rw [← e]; exact hx)
      have hxa : ∀ x ∈ xs, x ≠ a := fun x hx e => ha.2 (by rw [← e]; exact hx)
      have hsub : ∀ x ∈ xs.take n, x ∈ xs := fun x hx => List.mem_of_mem_take hx
      have hdis : ∀ x ∈ xs.take n, x ∉ xs.drop n := by
        intro x hx hx'
        have := hxs
        rw [← List.take_append_drop n xs] at this
        exact (List.nodup_append.1 this).2.2 x hx x hx' rfl
      have keep : ∀ x ∈ xs.take n, m2 x = m x := fun x hx => by
        rw [w2.other x (hxa x (hsub x hx)), h1 x (hxp x (hsub x hx)) (hdis x hx)]
      have hp2 : m2 p = m' p := w2.other p (Ne.symm ha.1)
      refine ⟨⟨p, hx0, w2.keep _ _ _ (hx0.congr (h1 a ha.1 had)) (.inr (by decide)),
        fun j v h6 h7 hj => (h4 j v hj (.inl h6)).congr hp2, fun j h6 h7 => (h5 j h6 (by omega)).congr hp2⟩, a :: p :: xs.take n, ⟨⟨?_, ?_⟩, w2.size _ _ (hs.congr (h1 a ha.1 had)), w2.here, hn, p, xs.take n,
        w2.keep _ _ _ (hx0.congr (h1 a ha.1 had)) (.inr (by decide)), h3.congr hp2, take_length_le hl (by omega), ?_, List.Perm.refl _⟩, ?_, ?_, ?_⟩
      · refine List.nodup_cons.2 ⟨?_, List.nodup_cons.2 ⟨fun c' => hpn (hsub p c'), hxs.sublist (List.take_sublist _ _)⟩⟩
        rw [List.mem_cons, not_or]; exact ⟨ha.1, fun c' => ha.2 (hsub a c')⟩
      · intro b hbm
        rcases List.mem_cons.1 hbm with c' | c'
        · rw [c']; exact ⟨(hb.2 a ((mem a).2 (.inl rfl))).1, w2.still⟩
        · rcases List.mem_cons.1 c' with c'' | c''
          · rw [c'', hp2]; exact ⟨(hb.2 p ((mem p).2 (.inr (.inl rfl)))).1, h3.live⟩
          · rw [keep b c'']; exact hb.2 b ((mem b).2 (.inr (.inr (hsub b c''))))
      · intro i x hx
        have hxm := List.mem_of_getElem? hx
        have hin : i < n := by
          rcases Nat.lt_or_ge i n with c' | c'
          · exact c'
          · rw [List.getElem?_take, if_neg (by omega)] at hx; cases hx
        rw [List.getElem?_take, if_pos hin] at hx
        exact ⟨(h4 _ _ (hF i x hx).1 (.inl hin)).congr hp2, (hF i x hx).2.congr (keep x hxm)⟩
      · intro b hb1 hb2
        rw [mem, not_or, not_or] at hb2
        rw [List.mem_cons, List.mem_cons] at hb1
        rcases hb1 with c' | c' | c'
        · exact absurd c' hb2.1
        · exact absurd c' hb2.2.1
        · exact absurd (hsub b c') hb2.2.2
      · intro b hb1 hb2
        rw [List.mem_cons, List.mem_cons, not_or, not_or] at hb2
        rcases (mem b).1 hb1 with c' | c' | c'
        · exact absurd c' hb2.1
        · exact absurd c' hb2.2.1
        · rw [← List.take_append_drop n xs, List.mem_append] at c'
          rcases c' with c' | c'
          · exact absurd c' hb2.2.2
          · rw [w2.other b hb2.1]; exact h2 b c'
      · intro b hb1 hb2
        rw [mem, not_or, not_or] at hb1
        rw [w2.other b hb1.1, h1 b hb1.2.1 (fun c' => hb1.2.2 (List.mem_of_mem_drop c'))]
  · rw [if_neg cn]
    refine post_bind (post_loop (fun i m' => ∃ ys, ys.length = i ∧ Filled m' p 0 1 (xs ++ ys) ∧ Size m' p c ∧
      ys.Nodup ∧ (∀ y ∈ ys, m y = none ∧ y ≠ 0) ∧ ∀ b, b ≠ p → b ∉ ys → m' b = m b) (n - d)
      ⟨[], rfl, by rw [List.append_nil]; intro i x hx; rw [Nat.zero_add]; exact hF i x hx, hsx, List.nodup_nil,
        fun y hy => (by cases hy), fun b _ _ => rfl⟩ ?_ ?_)
    · rintro i hi m' ⟨ys, hyl, hF', hs', hyn, hyo, ho⟩
      have hay : a ∉ ys := fun c' => hs.live (hyo a c').1
      have ha0 : Has m' a 0 p := hx0.congr (ho a ha.1 hay)
      refine post_bind (post_mzdInit fun x m1 n1 => ?_)
      refine post_bind (post_load (n1.has ha0) ?_)
      refine post_write (n1.size hs') (by omega) fun m2 w2 => ?_
      have hxp : x ≠ p := (n1.ne hs'.live).symm
      have hxy : x ∉ ys := by
        intro hc
        exact (hF'.size_of (List.mem_append_right _ hc)).live n1.free
      have e0 : 0 + (xs ++ ys).length = d + i := by rw [Nat.zero_add, List.length_append]; omega
      refine ⟨ys ++ [x], by rw [List.length_append, hyl]; rfl, ?_, w2.size _ _ (n1.size hs'), ?_, ?_, ?_⟩
      · rw [← List.append_assoc]
        exact (hF'.new n1).push (by rw [e0]; exact w2) n1.mySize
      · exact List.nodup_append.2 ⟨hyn, List.nodup_singleton x, fun y hy z hz e => hxy (by rw [List.mem_singleton] at hz; rw [← hz, ← e]; exact hy)⟩
      · intro y hy
        rw [List.mem_append, List.mem_singleton] at hy
        rcases hy with c' | c'
        · exact hyo y c'
        · rw [c']; exact ⟨by rw [← ho x hxp hxy]; exact n1.free, n1.ne0⟩
      · intro b hba hbn
        rw [List.mem_append, List.mem_singleton, not_or] at hbn
        rw [w2.other b hba, n1.other b hbn.2, ho b hba hbn.1]
    · rintro m' ⟨ys, hyl, hF', hs', hyn, hyo, ho⟩
      have hay : a ∉ ys := fun c' => hs.live (hyo a c').1
      have ea : m' a = m a := ho a ha.1 hay
      refine post_write (hs.congr ea) (by decide) fun m2 w2 => ?_
      have hya : ∀ y ∈ ys, y ∉ a :: p :: xs := by
        intro y hy hc
        have := (hb.2 y (hp.mem_iff.1 hc)).2
        exact this (hyo y hy).1
      have hp2 : m2 p = m' p := w2.other p (Ne.symm ha.1)
      refine ⟨⟨p, hx0, w2.keep _ _ _ (hx0.congr ea) (.inr (by decide)), fun j v h6 h7 hj => ?_, fun j h6 h7 => absurd h7 (by omega)⟩,
        a :: p :: (xs ++ ys), ⟨⟨?_, ?_⟩, w2.size _ _ (hs.congr ea), w2.here, hn, p, xs ++ ys,
        w2.keep _ _ _ (hx0.congr ea) (.inr (by decide)), hs'.congr hp2, by rw [List.length_append]; omega, ?_, List.Perm.refl _⟩, ?_, ?_, ?_⟩
      · obtain ⟨x, hx⟩ := getElem?_of_lt hl h7
        have hv := hj.val_eq (hF j x hx).1
        subst hv
        have := hF' j v (by rw [List.getElem?_append_left (by omega)]; exact hx)
        rw [Nat.zero_add] at this
        exact this.1.congr hp2
      · rw [← List.cons_append, ← List.cons_append]
        exact List.nodup_append.2 ⟨hnd, hyn, fun x hx y hy e => hya y hy (by rw [← e]; exact hx)⟩
      · intro b hbm
        rw [List.mem_cons, List.mem_cons] at hbm
        rcases hbm with c' | c' | c'
        · rw [c']; exact ⟨(hb.2 a ((mem a).2 (.inl rfl))).1, w2.still⟩
        · rw [c', hp2]; exact ⟨(hb.2 p ((mem p).2 (.inr (.inl rfl)))).1, hs'.live⟩
        · refine ⟨?_, (w2.size _ _ (hF'.size_of c')).live⟩
          rcases List.mem_append.1 c' with c'' | c''
          · exact (hb.2 b ((mem b).2 (.inr (.inr c'')))).1
          · exact (hyo b c'').2
      · intro i x hx
        have := hF' i x hx
        rw [Nat.zero_add] at this
        exact ⟨this.1.congr hp2, w2.size _ _ this.2⟩
      · intro b hb1 hb2
        rw [mem, not_or, not_or] at hb2
        rw [List.mem_cons, List.mem_cons, List.mem_append] at hb1
        rcases hb1 with c' | c' | c' | c'
        · exact absurd c' hb2.1
        · exact absurd c' hb2.2.1
        · exact absurd c' hb2.2.2
        · exact (hyo b c').1
      · intro b hb1 hb2
        rw [List.mem_cons, List.mem_cons, List.mem_append, not_or, not_or, not_or] at hb2
        rcases (mem b).1 hb1 with c' | c' | c'
        · exact absurd c' hb2.1
        · exact absurd c' hb2.2.1
        · exact absurd c' hb2.2.2.1
      · intro b hb1 hb2
        rw [List.mem_cons, List.mem_cons, List.mem_append, not_or, not_or, not_or] at hb2
        rw [w2.other b hb2.1, ho b hb2.2.1 hb2.2.2.2]

/-! ## arrays of temporaries -/

theorem Ext.del {m0 a l m m'} (h : Ext m0 (a :: l) m) (d : Del m a m') : Ext m0 l m' := by
  obtain ⟨ha, hn⟩ := List.nodup_cons.1 h.nodup
  refine ⟨hn, fun b hb => h.ne0 b (List.mem_cons_of_mem _ hb), fun b hb => h.old b (List.mem_cons_of_mem _ hb), ?_, ?_⟩
  · intro b hb
    rw [d.other b (fun e => ha (by rw [← e]; exact hb))]
    exact h.live b (List.mem_cons_of_mem _ hb)
  · intro b hb
    by_cases e : b = a
    · rw [e, d.self, h.old a (by simp)]
    · rw [d.other b e, h.other b (by rw [List.mem_cons, not_or]; exact ⟨e, hb⟩)]

theorem Ext.delAll {m0 l l' m} (h : Ext m0 (l ++ l') m) : Ext m0 l' (m.without l) := by
  obtain ⟨h1, h2, h3⟩ := List.nodup_append.1 h.nodup
  refine ⟨h2, fun b hb => h.ne0 b (List.mem_append_right _ hb), fun b hb => h.old b (List.mem_append_right _ hb), ?_, ?_⟩
  · intro b hb
    unfold Mem.without
    rw [if_neg (fun c => h3 b c b hb rfl)]
    exact h.live b (List.mem_append_right _ hb)
  · intro b hb
    unfold Mem.without
    by_cases c : b ∈ l
    · rw [if_pos c, h.old b (List.mem_append_left _ c)]
    · rw [if_neg c, h.other b (by rw [List.mem_append, not_or]; exact ⟨c, hb⟩)]

theorem Ext.eq {m0 m} (h : Ext m0 [] m) : m = m0 := funext fun b => h.other b (by simp)

theorem Filled.tail {m p off k x xs} (h : Filled m p off k (x :: xs)) : Filled m p (off + 1) k xs := by
  intro i y hy
  have := h (i + 1) y (by rw [List.getElem?_cons_succ]; exact hy)
  rw [Nat.add_assoc, Nat.add_comm 1 i]
  exact this

theorem Filled.head {m p off k x xs} (h : Filled m p off k (x :: xs)) : Has m p off x ∧ Size m x k := by
  have := h 0 x rfl
  rw [Nat.add_zero] at this
  exact this

theorem Filled.del {m p off k xs a m'} (h : Filled m p off k xs) (d : Del m a m') (hp : p ≠ a) (hx : a ∉ xs) : Filled m' p off k xs :=
  h.congr (d.other p hp) fun x hxm => d.other x fun e => hx (by rw [← e]; exact hxm)

theorem count_perm {l l' : List Nat} (h : ∀ z, List.count z l = List.count z l') : l.Perm l' := List.perm_iff_count.2 h

theorem applyBlmDjb_post {n : Nat} {m : Mem} : Post true (applyBlmDjb A n) m fun _ m' => m' = m := by
  unfold applyBlmDjb
  refine post_bind (post_malloc fun t0 m1 n1 => ?_)
  refine post_bind (post_malloc fun t1 m2 n2 => ?_)
  refine post_bind (post_malloc fun t2 m3 n3 => ?_)
  have e3 := (((Ext.nil m).new n1).new n2).new n3
  have z1 : Size m1 t0 n := by have := n1.mySize; rwa [List.length_replicate] at this
  have z2 : Size m2 t1 n := by have := n2.mySize; rwa [List.length_replicate] at this
  have z3 : Size m3 t2 n := by have := n3.mySize; rwa [List.length_replicate] at this
  have s0 : Size m3 t0 n := n3.size (n2.size z1)
  have s1 : Size m3 t1 n := n3.size z2
  have d01 : t0 ≠ t1 := n2.ne z1.live
  have d02 : t0 ≠ t2 := n3.ne (n2.size z1).live
  have d12 : t1 ≠ t2 := n3.ne z2.live
  refine post_bind (post_loop (fun i m' => ∃ xs ys l, xs.length = i ∧ ys.length = i ∧ Filled m' t1 0 1 xs ∧ Filled m' t2 0 1 ys ∧ Ext m l m' ∧
    l.Perm (t0 :: t1 :: t2 :: (xs ++ ys)) ∧ Size m' t0 n ∧ Size m' t1 n ∧ Size m' t2 n) n
    ⟨[], [], [t2, t1, t0], rfl, rfl, Filled.nil, Filled.nil, e3, ?_, s0, s1, z3⟩ ?_ ?_)
  · exact count_perm fun z => by simp only [List.count_cons, List.count_nil, List.append_nil]; ring
  · rintro i hi m' ⟨xs, ys, l, hxl, hyl, hX, hY, hE, hp, h0, h1, h2⟩
    refine post_bind (post_mzdInit fun x m4 n4 => ?_)
    refine post_bind (post_write (n4.size h1) hi fun m5 w5 => ?_)
    have e5 := (hE.new n4).wrote w5 (List.mem_cons_of_mem _ (hp.mem_iff.2 (by simp)))
    have hX5 : Filled m5 t1 0 1 (xs ++ [x]) := (hX.new n4).push (by rw [Nat.zero_add, hxl]; exact w5) n4.mySize
    have hY5 : Filled m5 t2 0 1 ys := (hY.new n4).wrote_other w5 (.inl d12.symm)
    refine post_bind (post_mzdInit fun y m6 n6 => ?_)
    refine post_write (n6.size (w5.size _ _ (n4.size h2))) hi fun m7 w7 => ?_
    have e7 := (e5.new n6).wrote w7 (List.mem_cons_of_mem _ (List.mem_cons_of_mem _ (hp.mem_iff.2 (by simp))))
    refine ⟨xs ++ [x], ys ++ [y], y :: x :: l, by rw [List.length_append, hxl]; rfl, by rw [List.length_append, hyl]; rfl,
      (hX5.new n6).wrote_other w7 (.inl d12), (hY5.new n6).push (by rw [Nat.zero_add, hyl]; exact w7) n6.mySize, e7, ?_,
      w7.size _ _ (n6.size (w5.size _ _ (n4.size h0))), w7.size _ _ (n6.size (w5.size _ _ (n4.size h1))),
      w7.size _ _ (n6.size (w5.size _ _ (n4.size h2)))⟩
    refine ((hp.cons x).cons y).trans (count_perm fun z => ?_)
    simp only [List.count_cons, List.count_nil, List.count_append]; ring
  rintro m4 ⟨xs, ys, l, hxl, hyl, hX, hY, hE, hp, h0, h1, h2⟩
  refine post_bind (post_loop (fun i m' => ∃ xs ys zs l, xs.length + i = n ∧ ys.length + i = n ∧ zs.length = i ∧ Filled m' t1 i 1 xs ∧
    Filled m' t2 i 1 ys ∧ Filled m' t0 0 1 zs ∧ Ext m l m' ∧ (t0 :: t1 :: t2 :: (xs ++ ys ++ zs)).Perm l ∧ Size m' t0 n ∧ Size m' t1 n ∧ Size m' t2 n) n
    ⟨xs, ys, [], l, by omega, by omega, rfl, hX, hY, Filled.nil, hE, by rw [List.append_nil]; exact hp.symm, h0, h1, h2⟩ ?_ ?_)
  · rintro i hi m' ⟨xs, ys, zs, l, hxl, hyl, hzl, hX, hY, hZ, hE, hp, h0, h1, h2⟩
    obtain ⟨x, xs, rfl⟩ : ∃ x xs', xs = x :: xs' := by cases xs with | nil => simp at hxl; omega | cons x xs => exact ⟨x, xs, rfl⟩
    obtain ⟨y, ys, rfl⟩ : ∃ y ys', ys = y :: ys' := by cases ys with | nil => simp at hyl; omega | cons x xs => exact ⟨x, xs, rfl⟩
    rw [List.length_cons] at hxl hyl
    refine post_bind (post_mzdInit fun w m5 n5 => ?_)
    refine post_bind (post_write (n5.size h0) hi fun m6 w6 => ?_)
    have e6 := (hE.new n5).wrote w6 (List.mem_cons_of_mem _ (hp.mem_iff.1 (by simp)))
    have hX6 := (hX.new n5).wrote_other w6 (.inl d01.symm)
    have hY6 := (hY.new n5).wrote_other w6 (.inl d02.symm)
    have hZ6 : Filled m6 t0 0 1 (zs ++ [w]) := (hZ.new n5).push (by rw [Nat.zero_add, hzl]; exact w6) n5.mySize
    have s06 := w6.size _ _ (n5.size h0)
    have s16 := w6.size _ _ (n5.size h1)
    have s26 := w6.size _ _ (n5.size h2)
    have p6 : (w :: l).Perm (x :: y :: t0 :: t1 :: t2 :: (xs ++ ys ++ (zs ++ [w]))) := by
      refine (hp.symm.cons w).trans (count_perm fun z => ?_)
      simp only [List.count_cons, List.count_nil, List.count_append]; ring
    have e6' := e6.perm p6
    have nd := e6'.nodup
    rw [List.nodup_cons, List.nodup_cons] at nd
    obtain ⟨hx1, hy1, _⟩ := nd
    simp only [List.mem_cons, List.mem_append, not_or] at hx1 hy1
    obtain ⟨hxy, hx0, hx1, hx2, ⟨hxx, hxy'⟩, hxz, hxw⟩ := hx1
    obtain ⟨hy0, hy1, hy2, ⟨hyx, hyy⟩, hyz, hyw⟩ := hy1
    refine post_bind (post_load hX6.head.1 ?_)
    refine post_bind (post_mzdFree hX6.head.2.live fun m7 D7 => ?_)
    have e7 := e6'.del D7
    have hX7 := hX6.tail.del D7 (Ne.symm hx1) hxx
    have hY7 := hY6.del D7 (Ne.symm hx2) (by rw [List.mem_cons, not_or]; exact ⟨hxy, hxy'⟩)
    have hZ7 := hZ6.del D7 (Ne.symm hx0) (by simp only [List.mem_append, List.mem_cons, not_or]; exact ⟨hxz, hxw⟩)
    have s07 := s06.congr (D7.other t0 (Ne.symm hx0))
    have s17 := s16.congr (D7.other t1 (Ne.symm hx1))
    have s27 := s26.congr (D7.other t2 (Ne.symm hx2))
    refine post_bind (post_load hY7.head.1 ?_)
    refine post_mzdFree hY7.head.2.live fun m8 D8 => ?_
    have e8 := e7.del D8
    exact ⟨xs, ys, zs ++ [w], _, by omega, by omega, by rw [List.length_append, hzl]; rfl, hX7.del D8 (Ne.symm hy1) hyx,
      hY7.tail.del D8 (Ne.symm hy2) hyy, hZ7.del D8 (Ne.symm hy0) (by simp only [List.mem_append, List.mem_cons, not_or]; exact ⟨hyz, hyw⟩), e8,
      List.Perm.refl _, s07.congr (D8.other t0 (Ne.symm hy0)), s17.congr (D8.other t1 (Ne.symm hy1)), s27.congr (D8.other t2 (Ne.symm hy2))⟩
  rintro m5 ⟨xs, ys, zs, l, hxl, hyl, hzl, hX, hY, hZ, hE, hp, h0, h1, h2⟩
  have hx0 : xs = [] := List.length_eq_zero_iff.1 (by omega)
  have hy0 : ys = [] := List.length_eq_zero_iff.1 (by omega)
  subst hx0 hy0
  refine post_bind (post_loop (fun i m' => ∃ zs, zs.length + i = n ∧ Filled m' t0 i 1 zs ∧ Ext m (zs ++ [t0, t1, t2]) m') n
    ⟨zs, by omega, hZ, hE.perm (hp.symm.trans (count_perm fun z => ?_))⟩ ?_ ?_)
  · simp only [List.count_cons, List.count_nil, List.count_append]; ring
  · rintro i hi m' ⟨zs, hzl, hZ, hE⟩
    obtain ⟨w, zs, rfl⟩ : ∃ x xs', zs = x :: xs' := by cases zs with | nil => simp at hzl; omega | cons x xs => exact ⟨x, xs, rfl⟩
    rw [List.length_cons] at hzl
    refine post_bind (post_load hZ.head.1 ?_)
    have nd := hE.nodup
    rw [List.cons_append, List.nodup_cons] at nd
    have nd := nd.1
    simp only [List.mem_append, List.mem_cons, not_or] at nd
    refine post_mzdFree hZ.head.2.live fun m6 D6 => ?_
    exact ⟨zs, by omega, hZ.tail.del D6 (Ne.symm nd.2.1) nd.1, hE.del D6⟩
  rintro m6 ⟨zs, hzl, hZ, hE⟩
  have hz0 : zs = [] := List.length_eq_zero_iff.1 (by omega)
  subst hz0
  rw [List.nil_append] at hE
  refine post_bind (post_free (hE.ne0 t0 (by simp)) (hE.live t0 (by simp)) fun m7 D7 => ?_)
  have e7 := hE.del D7
  refine post_bind (post_free (e7.ne0 t1 (by simp)) (e7.live t1 (by simp)) fun m8 D8 => ?_)
  have e8 := e7.del D8
  refine post_free (e8.ne0 t2 (by simp)) (e8.live t2 (by simp)) fun m9 D9 => ?_
  exact (e8.del D9).eq

end M4rie.Mem
