import Verif.Proofs.BlocksField
/-! # Destructors and changes of depth -/
namespace M4rie.Mem

variable {A : Alloc}

theorem Gone.congr {m0 l l' m} (h : Gone m0 l m) (e : ∀ x, x ∈ l ↔ x ∈ l') : Gone m0 l' m :=
  ⟨fun b hb => h.gone b ((e b).2 hb), fun b hb => h.other b (fun c => hb ((e b).1 c))⟩

theorem take_succ {xs : List Nat} {i x : Nat} (h : xs[i]? = some x) : xs.take (i + 1) = xs.take i ++ [x] := by
  rw [List.take_add_one, h]; rfl

theorem not_mem_take {xs : List Nat} (hn : xs.Nodup) {i x : Nat} (h : xs[i]? = some x) : x ∉ xs.take i := by
  intro hc
  obtain ⟨j, hj⟩ := List.getElem?_of_mem hc
  have hj' : j < i := by
    rcases Nat.lt_or_ge j i with c | c
    · exact c
    · rw [List.getElem?_take, if_neg (by omega)] at hj; cases hj
  rw [List.getElem?_take, if_pos hj'] at hj
  have hi : i < xs.length := by
    rcases Nat.lt_or_ge i xs.length with c | c
    · exact c
    · rw [List.getElem?_eq_none c] at h; cases h
  have := (List.nodup_iff_injective_getElem.1 hn)
  have hjl : j < xs.length := by omega
  rw [List.getElem?_eq_getElem hi] at h
  rw [List.getElem?_eq_getElem hjl] at hj
  have e : xs[j] = xs[i] := by
    have h1 : xs[i] = x := Option.some.inj h
    have h2 : xs[j] = x := Option.some.inj hj
    rw [h1, h2]
  have := @this ⟨j, hjl⟩ ⟨i, hi⟩ e
  have : j = i := congrArg Fin.val this
  omega

theorem getElem?_of_lt {xs : List Nat} {i n : Nat} (hl : xs.length = n) (h : i < n) : ∃ x, xs[i]? = some x :=
  ⟨xs[i], List.getElem?_eq_getElem (by omega)⟩

/-- what a destructor does -/
theorem ok_without {x : M Unit} {m : Mem} {l : List Nat} (h : Post false x m fun _ m' => Gone m l m') : x m = .ok () (m.without l) :=
  ok_of_post (post_mono h fun _ _ hg => hg.without)

theorem mzedFree_ok {m a k l} (h : MzedAt m a k l) : mzedFree a m = .ok () (m.without l) := by
  obtain ⟨hb, hs, hk, x, hx, hp⟩ := h
  have hn : [a, x].Nodup := hp.nodup_iff.2 hb.1
  have hax : a ≠ x := by simp at hn; exact hn
  have hxl := hb.2 x (hp.mem_iff.1 (by simp))
  have hal := hb.2 a (hp.mem_iff.1 (by simp))
  refine ok_without ?_
  unfold mzedFree
  refine post_bind (post_load hx ?_)
  refine post_bind (post_mzdFree hxl.2 fun m1 d1 => ?_)
  refine post_free hal.1 (by rw [d1.other a hax]; exact hal.2) fun m2 d2 => ?_
  exact (((Gone.nil m).del d1).del d2).perm hp

theorem sliceFree_ok {m a k d l} (h : SliceAt m a k d l) : sliceFree a m = .ok () (m.without l) := by
  obtain ⟨hb, hs, hd, hk, he, xs, hl, hF, hp⟩ := h
  have hn : (a :: xs).Nodup := hp.nodup_iff.2 hb.1
  obtain ⟨ha, hxs⟩ := List.nodup_cons.1 hn
  have hal := hb.2 a (hp.mem_iff.1 (by simp))
  refine ok_without ?_
  unfold sliceFree
  refine post_bind (post_load hd ?_)
  refine post_bind (post_loop (fun i m' => Gone m (xs.take i) m') d (by rw [List.take_zero]; exact Gone.nil m) ?_ ?_)
  · intro i hi m' hg
    obtain ⟨x, hx⟩ := getElem?_of_lt hl hi
    have hnt : a ∉ xs.take i := fun c => ha (List.mem_of_mem_take c)
    refine post_bind (post_load (hg.has (hF i x hx).1 hnt) ?_)
    refine post_mzdFree (hg.live (hF i x hx).2.live (not_mem_take hxs hx)) fun m1 d1 => ?_
    rw [take_succ hx]
    exact (hg.del d1).congr (fun y => by simp only [List.mem_cons, List.mem_append, List.not_mem_nil, or_false]; exact or_comm)
  · intro m' hg
    rw [← hl, List.take_length] at hg
    refine post_free hal.1 (hg.live hal.2 ha) fun m2 d2 => ?_
    exact (hg.del d2).perm hp

theorem MzedAt.gone {m m' a k l l'} (h : MzedAt m a k l) (g : Gone m l' m') (hd : ∀ b ∈ l, b ∉ l') : MzedAt m' a k l :=
  h.congr fun b hb => g.other b (hd b hb)

theorem njtFree_ok {m a k l} (h : NjtAt m a k l) : njtFree a m = .ok () (m.without l) := by
  obtain ⟨hb, hs, t, x, y, l1, l2, ht, hy, hx, hx1, hy1, hp⟩ := h
  have hn : (a :: t :: (l1 ++ l2)).Nodup := hp.nodup_iff.2 hb.1
  obtain ⟨ha, hn⟩ := List.nodup_cons.1 hn
  obtain ⟨htn, hn⟩ := List.nodup_cons.1 hn
  rw [List.mem_cons, List.mem_append, not_or, not_or] at ha
  rw [List.mem_append, not_or] at htn
  have hdis := (List.nodup_append.1 hn).2.2
  have hal := hb.2 a (hp.mem_iff.1 (by simp))
  have htl := hb.2 t (hp.mem_iff.1 (by simp))
  refine ok_without ?_
  unfold njtFree
  refine post_bind (post_load hy ?_)
  refine post_bind (post_of_ok (mzedFree_ok hy1) ?_)
  have g1 := without_gone m l2
  refine post_bind (post_load (g1.has hx ha.2.2) ?_)
  refine post_bind (post_of_ok (mzedFree_ok (hx1.gone g1 fun b h1 h2 => hdis b h1 b h2 rfl)) ?_)
  have g2 := g1.trans (without_gone _ l1)
  have ha2 : a ∉ l1 ++ l2 := by rw [List.mem_append, not_or]; exact ha.2
  have ht2 : t ∉ l1 ++ l2 := by rw [List.mem_append, not_or]; exact htn
  refine post_bind (post_load (g2.has ht ha2) ?_)
  refine post_bind (post_free htl.1 (g2.live htl.2 ht2) fun m3 d3 => ?_)
  have g3 := g2.del d3
  refine post_free hal.1 (g3.live hal.2 ?_) fun m4 d4 => ?_
  · rw [List.mem_cons, not_or]; exact ⟨ha.1, ha2⟩
  · exact (g3.del d4).perm hp

theorem polyFree_ok {m a d c l} (h : PolyAt m a d c l) : polyFree a m = .ok () (m.without l) := by
  obtain ⟨hb, hs, hd, hdc, x, xs, hx, hsx, hl, hF, hp⟩ := h
  have hn : (a :: x :: xs).Nodup := hp.nodup_iff.2 hb.1
  obtain ⟨ha, hn⟩ := List.nodup_cons.1 hn
  obtain ⟨hxn, hxs⟩ := List.nodup_cons.1 hn
  rw [List.mem_cons, not_or] at ha
  have hal := hb.2 a (hp.mem_iff.1 (by simp))
  have hxl := hb.2 x (hp.mem_iff.1 (by simp))
  refine ok_without ?_
  unfold polyFree
  refine post_bind (post_load hd ?_)
  refine post_bind (post_loop (fun i m' => Gone m (xs.take i) m') d (by rw [List.take_zero]; exact Gone.nil m) ?_ ?_)
  · intro i hi m' hg
    obtain ⟨y, hy⟩ := getElem?_of_lt hl hi
    refine post_bind (post_load (hg.has hx fun c => ha.2 (List.mem_of_mem_take c)) ?_)
    refine post_bind (post_load (hg.has (hF i y hy).1 fun c => hxn (List.mem_of_mem_take c)) ?_)
    refine post_mzdFree (hg.live (hF i y hy).2.live (not_mem_take hxs hy)) fun m1 d1 => ?_
    rw [take_succ hy]
    exact (hg.del d1).congr (fun y => by simp only [List.mem_cons, List.mem_append, List.not_mem_nil, or_false]; exact or_comm)
  · intro m' hg
    rw [← hl, List.take_length] at hg
    refine post_bind (post_load (hg.has hx ha.2) ?_)
    refine post_bind (post_free hxl.1 (hg.live hxl.2 hxn) fun m2 d2 => ?_)
    have g2 := hg.del d2
    refine post_free hal.1 (g2.live hal.2 (by rw [List.mem_cons, not_or]; exact ha)) fun m3 d3 => ?_
    exact (g2.del d3).perm hp

theorem gf2eFree_ok {m a e l} (h : FieldAt m a e l) : gf2eFree a m = .ok () (m.without l) := by
  obtain ⟨hb, hs, hd, pow, red, hpw, hr, hsp, hsr, hcase⟩ := h
  refine ok_without ?_
  unfold gf2eFree
  rcases hcase with ⟨c8, mul, rows, hm, hsm, hl, hF, hp⟩ | ⟨c8, hm, hp⟩
  · have hn : (a :: pow :: red :: mul :: rows).Nodup := hp.nodup_iff.2 hb.1
    obtain ⟨ha, hn⟩ := List.nodup_cons.1 hn
    obtain ⟨hpn, hn⟩ := List.nodup_cons.1 hn
    obtain ⟨hrn, hn⟩ := List.nodup_cons.1 hn
    obtain ⟨hmn, hxs⟩ := List.nodup_cons.1 hn
    simp only [List.mem_cons, not_or] at ha hpn hrn
    have hal := hb.2 a (hp.mem_iff.1 (by simp))
    have hpl := hb.2 pow (hp.mem_iff.1 (by simp))
    have hrl := hb.2 red (hp.mem_iff.1 (by simp))
    have hml := hb.2 mul (hp.mem_iff.1 (by simp))
    refine post_bind (post_load hm ?_)
    rw [if_pos hml.1]
    refine post_bind (post_load hd ?_)
    refine post_bind (post_loop (fun i m' => Gone m (rows.take i) m') (2 ^ e) (by rw [List.take_zero]; exact Gone.nil m) ?_ ?_)
    · intro i hi m' hg
      obtain ⟨y, hy⟩ := getElem?_of_lt hl hi
      refine post_bind (post_load (hg.has hm fun c => ha.2.2.2 (List.mem_of_mem_take c)) ?_)
      refine post_bind (post_load (hg.has (hF i y hy).1 fun c => hmn (List.mem_of_mem_take c)) ?_)
      have hyl := hb.2 y (hp.mem_iff.1 (by simp only [List.mem_cons]; right; right; right; right; exact List.mem_of_getElem? hy))
      refine post_free hyl.1 (hg.live hyl.2 (not_mem_take hxs hy)) fun m1 d1 => ?_
      rw [take_succ hy]
      exact (hg.del d1).congr (fun y => by simp only [List.mem_cons, List.mem_append, List.not_mem_nil, or_false]; exact or_comm)
    · intro m' hg
      rw [← hl, List.take_length] at hg
      refine post_bind (post_load (hg.has hm ha.2.2.2) ?_)
      refine post_bind (post_free hml.1 (hg.live hml.2 hmn) fun m1 d1 => ?_)
      have g1 := hg.del d1
      refine post_bind (post_load (g1.has hpw (by simp only [List.mem_cons, not_or]; exact ⟨ha.2.2.1, ha.2.2.2⟩)) ?_)
      refine post_bind (post_free hpl.1 (g1.live hpl.2 (by simp only [List.mem_cons, not_or]; exact ⟨hpn.2.1, hpn.2.2⟩)) fun m2 d2 => ?_)
      have g2 := g1.del d2
      refine post_bind (post_load (g2.has hr (by simp only [List.mem_cons, not_or]; exact ⟨ha.1, ha.2.2.1, ha.2.2.2⟩)) ?_)
      refine post_bind (post_free hrl.1 (g2.live hrl.2 (by simp only [List.mem_cons, not_or]; exact ⟨Ne.symm hpn.1, hrn.1, hrn.2⟩)) fun m3 d3 => ?_)
      have g3 := g2.del d3
      refine post_free hal.1 (g3.live hal.2 (by simp only [List.mem_cons, not_or]; exact ⟨ha.2.1, ha.1, ha.2.2.1, ha.2.2.2⟩)) fun m4 d4 => ?_
      refine (g3.del d4).congr fun z => ?_
      rw [← hp.mem_iff]
      simp only [List.mem_cons]
      tauto
  · have hn : [a, pow, red].Nodup := hp.nodup_iff.2 hb.1
    have hal := hb.2 a (hp.mem_iff.1 (by simp))
    have hpl := hb.2 pow (hp.mem_iff.1 (by simp))
    have hrl := hb.2 red (hp.mem_iff.1 (by simp))
    simp only [List.nodup_cons, List.mem_cons, List.not_mem_nil, not_or, or_false, not_false_eq_true, List.nodup_nil, and_true] at hn
    obtain ⟨⟨h1, h2⟩, h3⟩ := hn
    refine post_bind (post_load hm ?_)
    rw [if_neg (by simp)]
    have g0 := Gone.nil m
    refine post_bind (post_load hpw ?_)
    refine post_bind (post_free hpl.1 hpl.2 fun m2 d2 => ?_)
    have g2 := g0.del d2
    refine post_bind (post_load (g2.has hr (by simpa using h1)) ?_)
    refine post_bind (post_free hrl.1 (g2.live hrl.2 (by simpa using Ne.symm h3)) fun m3 d3 => ?_)
    have g3 := g2.del d3
    refine post_free hal.1 (g3.live hal.2 (by simp only [List.mem_cons, List.not_mem_nil, or_false, not_or]; exact ⟨h2, h1⟩)) fun m4 d4 => ?_
    refine (g3.del d4).congr fun z => ?_
    rw [← hp.mem_iff]
    simp only [List.mem_cons]
    tauto

theorem blmFree_ok {m a l} (h : BlmAt m a l) : blmFree a m = .ok () (m.without l) := by
  obtain ⟨hb, hs, H, h, F, f, G, g, hH, hh, hF, hf, hG, hg, hcase⟩ := h
  refine ok_without ?_
  unfold blmFree
  have mem : ∀ {z : Nat} {l' : List Nat}, l'.Perm l → z ∈ l' → z ≠ 0 ∧ m z ≠ none := fun hp hz => hb.2 _ (hp.mem_iff.1 hz)
  rcases hcase with ⟨c, hp⟩ | ⟨c, hp⟩
  · have hn : [a, H, h, F, f, G].Nodup := hp.nodup_iff.2 hb.1
    simp only [List.nodup_cons, List.mem_cons, List.not_mem_nil, not_or, or_false, not_false_eq_true, List.nodup_nil, and_true] at hn
    obtain ⟨⟨a1, a2, a3, a4, a5⟩, ⟨b1, b2, b3, b4⟩, ⟨c1, c2, c3⟩, ⟨d1, d2⟩, e1⟩ := hn
    subst c
    refine post_bind (post_load hF ?_)
    refine post_bind (post_mzdFree (mem hp (z := F) (by simp)).2 fun m1 D1 => ?_)
    have g1 := (Gone.nil m).del D1
    refine post_bind (post_load (g1.has hG (by simpa using a3)) ?_)
    refine post_bind (post_mzdFree (g1.live (mem hp (z := G) (by simp)).2 (by simpa using Ne.symm d2)) fun m2 D2 => ?_)
    have g2 := g1.del D2
    refine post_bind (post_load (g2.has hH (by simp; tauto)) ?_)
    refine post_bind (post_mzdFree (g2.live (mem hp (z := H) (by simp)).2 (by simp; tauto)) fun m3 D3 => ?_)
    have g3 := g2.del D3
    have na3 : a ∉ [H, G, F] := by simp; tauto
    refine post_bind (post_load (g3.has hf na3) ?_)
    refine post_bind (post_load (g3.has hg na3) ?_)
    rw [if_neg (by simp)]
    refine post_bind (post_load (g3.has hf na3) ?_)
    refine post_bind (post_mzdFree (g3.live (mem hp (z := f) (by simp)).2 (by simp; tauto)) fun m4 D4 => ?_)
    have g4 := g3.del D4
    refine post_bind (post_load (g4.has hh (by simp; tauto)) ?_)
    refine post_bind (post_mzdFree (g4.live (mem hp (z := h) (by simp)).2 (by simp; tauto)) fun m5 D5 => ?_)
    have g5 := g4.del D5
    refine post_free (mem hp (z := a) (by simp)).1 (g5.live (mem hp (z := a) (by simp)).2 (by simp; tauto)) fun m6 D6 => ?_
    refine (g5.del D6).congr fun z => ?_
    rw [← hp.mem_iff]
    simp only [List.mem_cons]
    tauto
  · have hn : [a, H, h, F, f, G, g].Nodup := hp.nodup_iff.2 hb.1
    simp only [List.nodup_cons, List.mem_cons, List.not_mem_nil, not_or, or_false, not_false_eq_true, List.nodup_nil, and_true] at hn
    obtain ⟨⟨a1, a2, a3, a4, a5, a6⟩, ⟨b1, b2, b3, b4, b5⟩, ⟨c1, c2, c3, c4⟩, ⟨d1, d2, d3⟩, ⟨e1, e2⟩, f1⟩ := hn
    refine post_bind (post_load hF ?_)
    refine post_bind (post_mzdFree (mem hp (z := F) (by simp)).2 fun m1 D1 => ?_)
    have g1 := (Gone.nil m).del D1
    refine post_bind (post_load (g1.has hG (by simpa using a3)) ?_)
    refine post_bind (post_mzdFree (g1.live (mem hp (z := G) (by simp)).2 (by simpa using Ne.symm d2)) fun m2 D2 => ?_)
    have g2 := g1.del D2
    refine post_bind (post_load (g2.has hH (by simp; tauto)) ?_)
    refine post_bind (post_mzdFree (g2.live (mem hp (z := H) (by simp)).2 (by simp; tauto)) fun m3 D3 => ?_)
    have g3 := g2.del D3
    have na3 : a ∉ [H, G, F] := by simp; tauto
    refine post_bind (post_load (g3.has hf na3) ?_)
    refine post_bind (post_load (g3.has hg na3) ?_)
    rw [if_pos c]
    refine post_bind (post_load (g3.has hg na3) ?_)
    refine post_bind (post_mzdFree (g3.live (mem hp (z := g) (by simp)).2 (by simp; tauto)) fun m4 D4 => ?_)
    have g4 := g3.del D4
    have na4 : a ∉ [g, H, G, F] := by simp; tauto
    refine post_bind (post_load (g4.has hf na4) ?_)
    refine post_bind (post_mzdFree (g4.live (mem hp (z := f) (by simp)).2 (by simp; tauto)) fun m5 D5 => ?_)
    have g5 := g4.del D5
    refine post_bind (post_load (g5.has hh (by simp; tauto)) ?_)
    refine post_bind (post_mzdFree (g5.live (mem hp (z := h) (by simp)).2 (by simp; tauto)) fun m6 D6 => ?_)
    have g6 := g5.del D6
    refine post_free (mem hp (z := a) (by simp)).1 (g6.live (mem hp (z := a) (by simp)).2 (by simp; tauto)) fun m7 D7 => ?_
    refine (g6.del D7).congr fun z => ?_
    rw [← hp.mem_iff]
    simp only [List.mem_cons, List.not_mem_nil, or_false]
    constructor <;> rintro (h | h | h | h | h | h | h) <;> simp only [h, true_or, or_true]

end M4rie.Mem
