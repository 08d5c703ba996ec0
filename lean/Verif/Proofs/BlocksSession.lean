import Verif.Proofs.BlocksDepth
/-! # Histories of constructors and destructors -/
namespace M4rie.Mem

variable {A : Alloc}

/-! ## frame -/

theorem SliceAt.congr {m m' a k d l} (h : SliceAt m a k d l) (e : ∀ b ∈ l, m' b = m b) : SliceAt m' a k d l := by
  obtain ⟨hb, hs, hd, hk, he, xs, hl, hF, hp⟩ := h
  have ea := e a (hp.mem_iff.1 (by simp))
  refine ⟨hb.congr e, hs.congr ea, hd.congr ea, hk.congr ea, he, xs, hl, fun i x hx => ?_, hp⟩
  exact ⟨(hF i x hx).1.congr ea, (hF i x hx).2.congr (e x (hp.mem_iff.1 (List.mem_cons_of_mem _ (List.mem_of_getElem? hx))))⟩

theorem PolyAt.congr {m m' a d c l} (h : PolyAt m a d c l) (e : ∀ b ∈ l, m' b = m b) : PolyAt m' a d c l := by
  obtain ⟨hb, hs, hd, hc, x, xs, hx, hsx, hl, hF, hp⟩ := h
  have ea := e a (hp.mem_iff.1 (by simp))
  have ex := e x (hp.mem_iff.1 (by simp))
  refine ⟨hb.congr e, hs.congr ea, hd.congr ea, hc, x, xs, hx.congr ea, hsx.congr ex, hl, fun i y hy => ?_, hp⟩
  exact ⟨(hF i y hy).1.congr ex, (hF i y hy).2.congr (e y (hp.mem_iff.1 (by simp [List.mem_of_getElem? hy])))⟩

theorem NjtAt.congr {m m' a k l} (h : NjtAt m a k l) (e : ∀ b ∈ l, m' b = m b) : NjtAt m' a k l := by
  obtain ⟨hb, hs, t, x, y, l1, l2, ht, hy, hx, h1, h2, hp⟩ := h
  have ea := e a (hp.mem_iff.1 (by simp))
  exact ⟨hb.congr e, hs.congr ea, t, x, y, l1, l2, ht.congr ea, hy.congr ea, hx.congr ea,
    h1.congr fun b hb => e b (hp.mem_iff.1 (by simp [hb])), h2.congr fun b hb => e b (hp.mem_iff.1 (by simp [hb])), hp⟩

theorem BlmAt.self {m a l} (h : BlmAt m a l) : a ∈ l := by
  obtain ⟨hb, hs, H, h, F, f, G, g, _, _, _, _, _, _, hc⟩ := h
  rcases hc with ⟨_, hp⟩ | ⟨_, hp⟩
  · exact hp.mem_iff.1 (by simp)
  · exact hp.mem_iff.1 (by simp)

theorem BlmAt.congr {m m' a l} (h : BlmAt m a l) (e : ∀ b ∈ l, m' b = m b) : BlmAt m' a l := by
  have ea := e a h.self
  obtain ⟨hb, hs, H, h, F, f, G, g, h1, h2, h3, h4, h5, h6, hc⟩ := h
  exact ⟨hb.congr e, hs.congr ea, H, h, F, f, G, g, h1.congr ea, h2.congr ea, h3.congr ea, h4.congr ea, h5.congr ea, h6.congr ea, hc⟩

theorem FieldAt.congr {m m' a d l} (h : FieldAt m a d l) (e : ∀ b ∈ l, m' b = m b) : FieldAt m' a d l := by
  obtain ⟨hb, hs, hd, pow, red, h1, h2, h3, h4, hc⟩ := h
  rcases hc with ⟨c8, mul, rows, hm, hsm, hl, hF, hp⟩ | ⟨c8, hm, hp⟩
  · have ea := e a (hp.mem_iff.1 (by simp))
    have em := e mul (hp.mem_iff.1 (by simp))
    refine ⟨hb.congr e, hs.congr ea, hd.congr ea, pow, red, h1.congr ea, h2.congr ea, h3.congr (e pow (hp.mem_iff.1 (by simp))),
      h4.congr (e red (hp.mem_iff.1 (by simp))), .inl ⟨c8, mul, rows, hm.congr ea, hsm.congr em, hl, fun i r hr => ?_, hp⟩⟩
    exact ⟨(hF i r hr).1.congr em, (hF i r hr).2.congr (e r (hp.mem_iff.1 (by simp [List.mem_of_getElem? hr])))⟩
  · have ea := e a (hp.mem_iff.1 (by simp))
    exact ⟨hb.congr e, hs.congr ea, hd.congr ea, pow, red, h1.congr ea, h2.congr ea, h3.congr (e pow (hp.mem_iff.1 (by simp))),
      h4.congr (e red (hp.mem_iff.1 (by simp))), .inr ⟨c8, hm.congr ea, hp⟩⟩

theorem Desc.At.congr {m m' a l} {D : Desc} (h : D.At m a l) (e : ∀ b ∈ l, m' b = m b) : D.At m' a l := by
  cases D with
  | field d => exact FieldAt.congr h e
  | mzed k => exact MzedAt.congr h e
  | slice k d => exact SliceAt.congr h e
  | njt k => exact NjtAt.congr h e
  | poly d c => exact PolyAt.congr h e
  | blm => exact BlmAt.congr h e

theorem Desc.At.self {m a l} {D : Desc} (h : D.At m a l) : a ∈ l := by
  cases D with
  | field d =>
    obtain ⟨_, _, _, pow, red, _, _, _, _, hc⟩ := (h : FieldAt m a d l)
    rcases hc with ⟨c8, mul, rows, hm, hsm, hl, hF, hp⟩ | ⟨c8, hm, hp⟩
    · exact hp.mem_iff.1 (by simp)
    · exact hp.mem_iff.1 (by simp)
  | mzed k => obtain ⟨_, _, _, x, _, hp⟩ := (h : MzedAt m a k l); exact hp.mem_iff.1 (by simp)
  | slice k d => obtain ⟨_, _, _, _, _, xs, _, _, hp⟩ := (h : SliceAt m a k d l); exact hp.mem_iff.1 (by simp)
  | njt k => obtain ⟨_, _, t, x, y, l1, l2, _, _, _, _, _, hp⟩ := (h : NjtAt m a k l); exact hp.mem_iff.1 (by simp)
  | poly d c => obtain ⟨_, _, _, _, x, xs, _, _, _, _, hp⟩ := (h : PolyAt m a d c l); exact hp.mem_iff.1 (by simp)
  | blm => exact BlmAt.self h

theorem Desc.At.blocks {m a l} {D : Desc} (h : D.At m a l) : Blocks m l := by
  cases D with
  | field d => exact (h : FieldAt m a d l).1
  | mzed k => exact (h : MzedAt m a k l).1
  | slice k d => exact (h : SliceAt m a k d l).1
  | njt k => exact (h : NjtAt m a k l).1
  | poly d c => exact (h : PolyAt m a d c l).1
  | blm => exact (h : BlmAt m a l).1

theorem Desc.At.ext {m m' a l l'} {D : Desc} (h : D.At m a l) (e : Ext m l' m') : D.At m' a l :=
  h.congr fun b hb => e.other b fun c => (h.blocks.2 b hb).2 (e.old b c)

theorem destroy_ok {m a l} {D : Desc} (h : D.At m a l) : destroy a D m = .ok () (m.without l) := by
  cases D with
  | field d => exact gf2eFree_ok h
  | mzed k => exact mzedFree_ok h
  | slice k d => exact sliceFree_ok h
  | njt k => exact njtFree_ok h
  | poly d c => exact polyFree_ok h
  | blm => exact blmFree_ok h

/-! ## the array of slices -/

/-- the array at `c` contains, from index `off` on, the slices `es` (addresses and blocks) -/
def Arr (m : Mem) (c off k e : Nat) (es : List (Nat × List Nat)) : Prop :=
  ∀ i p, es[i]? = some p → Has m c (off + i) p.1 ∧ SliceAt m p.1 k e p.2

def feet (es : List (Nat × List Nat)) : List Nat := es.flatMap (·.2)

theorem Arr.congr {m m' c off k e es} (h : Arr m c off k e es) (hc : m' c = m c) (hx : ∀ x ∈ feet es, m' x = m x) : Arr m' c off k e es := by
  intro i p hp
  refine ⟨(h i p hp).1.congr hc, (h i p hp).2.congr fun b hb => hx b ?_⟩
  exact List.mem_flatMap.2 ⟨p, List.mem_of_getElem? hp, hb⟩

theorem Arr.live {m c off k e es} (h : Arr m c off k e es) {x} (hx : x ∈ feet es) : m x ≠ none := by
  obtain ⟨p, hp, hb⟩ := List.mem_flatMap.1 hx
  obtain ⟨i, hi⟩ := List.getElem?_of_mem hp
  exact ((h i p hi).2.1.2 x hb).2

theorem post_assoc {α β γ : Type} {d : Bool} {x : M α} {f : α → M β} {g : β → M γ} {m : Mem} {Q : γ → Mem → Prop}
    (h : Post d (x >>= f) m fun b m' => Post d (g b) m' Q) : Post d (x >>= fun a => f a >>= g) m Q := by
  have h' : Post d (x >>= f) m fun b m' => Post d (g b) m' Q := h
  unfold Post at h' ⊢
  simp only [bind] at h' ⊢
  cases hx : x m with
  | ok a m' =>
    simp only [hx] at h' ⊢
    cases hy : f a m' with
    | ok b m'' => simp only [hy] at h' ⊢; exact h'
    | dead => simp only [hy] at h' ⊢; exact h'
    | fault => simp only [hy] at h'
  | dead => simp only [hx] at h' ⊢; exact h'
  | fault => simp only [hx] at h'

/-- one more slice -/
theorem arr_push {m m0 c k e d i es L r s} (hf : Has m0 k 0 e) (he : e ≤ 16) (hi : i < d) (hl : es.length = i) (hA : Arr m c 0 k e es)
    (hE : Ext m0 L m) (hp : L.Perm (c :: feet es)) (hs : Size m c d) {Q : Unit → Mem → Prop}
    (hQ : ∀ m', (∃ es L, es.length = i + 1 ∧ Arr m' c 0 k e es ∧ Ext m0 L m' ∧ L.Perm (c :: feet es) ∧ Size m' c d) → Q () m') :
    Post true (do let x ← sliceInit A k r s; store c i x) m Q := by
  refine post_bind (post_mono (sliceInit_post (hE.has hf) he) ?_)
  rintro x m1 ⟨hx0, l, hx, hE1⟩
  refine post_write (hE1.size hs) hi fun m2 w => ?_
  have hcl : c ∉ l := fun hc => hs.live (hE1.old c hc)
  have h1 : Arr m1 c 0 k e es := hA.congr (hE1.other c hcl) fun z hz => hE1.other z fun hc => hA.live hz (hE1.old z hc)
  have hE2 := (hE.trans hE1).wrote w (List.mem_append_right _ (hp.mem_iff.2 (by simp)))
  have hcf : c ∉ feet es := by
    have := hp.nodup_iff.1 hE.nodup
    exact (List.nodup_cons.1 this).1
  have h2 : ∀ z, z ∈ feet es → m2 z = m1 z := fun z hz => w.other z fun h => hcf (by rw [← h]; exact hz)
  refine hQ _ ⟨es ++ [(x, l)], l ++ L, by rw [List.length_append, hl]; rfl, ?_, hE2, ?_, w.size _ _ (hE1.size hs)⟩
  · intro j p hj
    rcases Nat.lt_or_ge j es.length with hj' | hj'
    · rw [List.getElem?_append_left hj'] at hj
      obtain ⟨a1, a2⟩ := h1 j p hj
      refine ⟨w.keep _ _ _ a1 (.inr (by omega)), a2.congr fun b hb => h2 b (List.mem_flatMap.2 ⟨p, List.mem_of_getElem? hj, hb⟩)⟩
    · rw [List.getElem?_append_right hj'] at hj
      have hj0 : j - es.length = 0 := by
        rcases Nat.eq_zero_or_pos (j - es.length) with h | h
        · exact h
        · rw [List.getElem?_eq_none (by rw [List.length_singleton]; exact h)] at hj; cases hj
      rw [hj0] at hj
      cases hj
      have : 0 + j = i := by omega
      rw [this]
      exact ⟨w.here, hx.congr fun b hb => w.other b fun h => hcl (by rw [← h]; exact hb)⟩
  · refine (List.Perm.append_left l hp).trans (count_perm fun z => ?_)
    simp only [feet, List.flatMap_append, List.flatMap_cons, List.flatMap_nil, List.append_nil, List.count_append, List.count_cons]
    ring

theorem ext1Array_post {k e d : Nat} {m : Mem} (hf : Has m k 0 e) (he : e ≤ 16) (hd : 2 ≤ d) :
    Post true (ext1Array A k d) m fun _ m' => m' = m := by
  unfold ext1Array
  refine post_bind (post_calloc fun c m1 n1 => ?_)
  have s1 : Size m1 c d := by have := n1.mySize; rwa [List.length_replicate] at this
  have e1 := (Ext.nil m).new n1
  refine post_assoc (arr_push (es := []) (i := 0) hf he (by omega) rfl (fun i p h => by cases h) e1 (List.Perm.refl _) s1 ?_)
  rintro m2 ⟨es2, L2, l2, a2, e2, p2, s2⟩
  refine post_assoc (arr_push (i := 1) hf he (by omega) l2 a2 e2 p2 s2 ?_)
  rintro m3 ⟨es3, L3, l3, a3, e3, p3, s3⟩
  refine post_bind (post_loop (fun i m' => ∃ es L, es.length = i + 2 ∧ Arr m' c 0 k e es ∧ Ext m L m' ∧ L.Perm (c :: feet es) ∧ Size m' c d)
    (d - 2) ⟨es3, L3, l3, a3, e3, p3, s3⟩ ?_ ?_)
  · rintro i hi m' ⟨es, L, hl, hA, hE, hp, hs⟩
    refine arr_push hf he (by omega) hl hA hE hp hs ?_
    intro m'' h
    exact h
  rintro m4 ⟨es, L, hl, hA, hE, hp, hs⟩
  refine post_bind (post_loop (fun i m' => ∃ es, es.length + i = d ∧ Arr m' c i k e es ∧ Ext m (feet es ++ [c]) m') d
    ⟨es, by omega, hA, hE.perm (hp.trans (List.perm_append_singleton c _).symm)⟩ ?_ ?_)
  · rintro i hi m' ⟨es, hl, hA, hE⟩
    obtain ⟨p, es, rfl⟩ : ∃ x xs', es = x :: xs' := by cases es with | nil => simp at hl; omega | cons x xs => exact ⟨x, xs, rfl⟩
    rw [List.length_cons] at hl
    obtain ⟨h1, h2⟩ := hA 0 p rfl
    rw [Nat.add_zero] at h1
    refine post_bind (post_load h1 ?_)
    refine post_of_ok (sliceFree_ok h2) ⟨es, by omega, ?_, ?_⟩
    · have hn := hE.nodup
      have hfe : feet (p :: es) = p.2 ++ feet es := rfl
      rw [hfe, List.append_assoc] at hn
      obtain ⟨_, _, hn⟩ := List.nodup_append.1 hn
      have out : ∀ z, z ∈ feet es ++ [c] → m'.without p.2 z = m' z := by
        intro z hz
        unfold Mem.without
        rw [if_neg fun hc => hn z hc z hz rfl]
      have hA' : Arr m' c (i + 1) k e es := by
        intro j q hj
        have := hA (j + 1) q (by rw [List.getElem?_cons_succ]; exact hj)
        rw [Nat.add_assoc, Nat.add_comm 1 j]
        exact this
      exact hA'.congr (out c (by simp)) fun x hx => out x (by simp [hx])
    · have hfe : feet (p :: es) = p.2 ++ feet es := rfl
      rw [hfe, List.append_assoc] at hE
      exact hE.delAll
  rintro m5 ⟨es, hl, hA, hE⟩
  have h0 : es = [] := List.length_eq_zero_iff.1 (by omega)
  subst h0
  have hE' : Ext m [c] m5 := hE
  refine post_free (hE'.ne0 c (by simp)) (hE'.live c (by simp)) fun m6 D => ?_
  exact (hE'.del D).eq

/-! ## the invariant -/

/-- the objects of the program are there, consist of different blocks, and these are all the blocks that have been added to `m0` -/
def Inv (m0 : Mem) (h : Objs) (m : Mem) : Prop :=
  ∃ t : List ((Nat × Desc) × List Nat), (t.map (·.1)).Perm h ∧ (∀ p ∈ t, p.1.2.At m p.1.1 p.2) ∧ Ext m0 (t.flatMap (·.2)) m

theorem Inv.start (m : Mem) : Inv m [] m := ⟨[], List.Perm.refl _, fun p hp => (by cases hp), Ext.nil m⟩

theorem perm_cons_of_mem {α : Type} {x : α} {t : List α} (h : x ∈ t) : ∃ t', t.Perm (x :: t') := by
  obtain ⟨s, u, rfl⟩ := List.append_of_mem h
  exact ⟨s ++ u, List.perm_middle⟩

/-- look at one object -/
theorem Inv.split {m0 h m a D} (i : Inv m0 h m) (hm : (a, D) ∈ h) : ∃ (l : List Nat) (t : List ((Nat × Desc) × List Nat)), ((a, D) :: t.map (·.1)).Perm h ∧ D.At m a l ∧
    (∀ p ∈ t, p.1.2.At m p.1.1 p.2) ∧ Ext m0 (l ++ t.flatMap (·.2)) m := by
  obtain ⟨t, hp, hA, hE⟩ := i
  obtain ⟨q, hq, hqe⟩ := List.mem_map.1 (hp.mem_iff.2 hm)
  obtain ⟨t', ht⟩ := perm_cons_of_mem hq
  obtain ⟨⟨a', D'⟩, l⟩ := q
  cases hqe
  refine ⟨l, t', ?_, hA _ hq, fun p hp => hA p (ht.mem_iff.2 (List.mem_cons_of_mem _ hp)), hE.perm ?_⟩
  · exact ((ht.map (·.1)).symm.trans hp)
  · exact (ht.flatMap_right _)

theorem Inv.at {m0 h m a D} (i : Inv m0 h m) (hm : (a, D) ∈ h) : ∃ l, D.At m a l := by
  obtain ⟨l, t, _, h, _⟩ := i.split hm; exact ⟨l, h⟩

/-- an address belongs to one object only -/
theorem Inv.unique {m0 h m a D D'} (i : Inv m0 h m) (hm : (a, D) ∈ h) (hm' : (a, D') ∈ h) : D = D' := by
  obtain ⟨l, t, hp, hD, hA, hE⟩ := i.split hm
  rcases List.mem_cons.1 (hp.mem_iff.2 hm') with c | c
  · cases c; rfl
  · obtain ⟨q, hq, hqe⟩ := List.mem_map.1 c
    have h1 := hA q hq
    rw [hqe] at h1
    exact absurd rfl ((List.nodup_append.1 hE.nodup).2.2 a hD.self a (List.mem_flatMap.2 ⟨q, hq, h1.self⟩))

theorem Inv.kindAt {m0 h m a D} (i : Inv m0 h m) (hm : (a, D) ∈ h) : kindAt h a = some D := by
  unfold Mem.kindAt
  cases hf : h.find? (fun p => p.1 = a) with
  | none =>
    have := List.find?_eq_none.1 hf _ hm
    simp at this
  | some q =>
    have h1 := List.find?_some hf
    have h2 := List.mem_of_find?_eq_some hf
    obtain ⟨a', D'⟩ := q
    simp only [decide_eq_true_eq] at h1
    subst h1
    rw [Option.map_some, i.unique hm h2]

theorem Inv.add {m0 h m a D l m'} (i : Inv m0 h m) (hD : D.At m' a l) (hE : Ext m l m') : Inv m0 ((a, D) :: h) m' := by
  obtain ⟨t, hp, hA, hE0⟩ := i
  refine ⟨((a, D), l) :: t, hp.cons _, ?_, hE0.trans hE⟩
  intro p hm
  rcases List.mem_cons.1 hm with c | c
  · rw [c]; exact hD
  · exact (hA p c).ext hE

theorem Inv.del {m0 h m a D} (i : Inv m0 h m) (hm : (a, D) ∈ h) :
    ∃ m', destroy a D m = .ok () m' ∧ Inv m0 (h.erase (a, D)) m' := by
  obtain ⟨l, t, hp, hD, hA, hE⟩ := i.split hm
  refine ⟨_, destroy_ok hD, t, ?_, ?_, hE.delAll⟩
  · have := hp.erase (a, D)
    rwa [List.erase_cons_head] at this
  · intro p hpm
    refine (hA p hpm).congr fun b hb => ?_
    unfold Mem.without
    rw [if_neg fun hc => (List.nodup_append.1 hE.nodup).2.2 b hc b (List.mem_flatMap.2 ⟨p, hpm, hb⟩) rfl]

theorem Inv.change {m0 : Mem} {h : Objs} {m : Mem} {a : Nat} {D D' : Desc} {l : List Nat} {t : List ((Nat × Desc) × List Nat)} {m' : Mem} {l' : List Nat} (hp : ((a, D) :: t.map (·.1)).Perm h) (hD : D.At m a l)
    (hA : ∀ p ∈ t, p.1.2.At m p.1.1 p.2) (hE : Ext m0 (l ++ t.flatMap (·.2)) m) (hD' : D'.At m' a l') (hc : Changes m l l' m') :
    Inv m0 ((a, D') :: h.erase (a, D)) m' := by
  have nd := List.nodup_append.1 hE.nodup
  have nb := hD'.blocks
  have live : ∀ p ∈ t, ∀ b ∈ p.2, b ∉ l ∧ b ∉ l' := by
    intro p hpm b hb
    have h1 : b ∉ l := fun hc => nd.2.2 b hc b (List.mem_flatMap.2 ⟨p, hpm, hb⟩) rfl
    exact ⟨h1, fun h2 => ((hA p hpm).blocks.2 b hb).2 (hc.old b h2 h1)⟩
  have keep : ∀ p ∈ t, ∀ b ∈ p.2, m' b = m b := fun p hpm b hb => hc.other b (live p hpm b hb).1 (live p hpm b hb).2
  have new : ∀ b ∈ l', m0 b = none := by
    intro b hb
    by_cases c : b ∈ l
    · exact hE.old b (List.mem_append_left _ c)
    · by_cases c' : b ∈ t.flatMap (·.2)
      · exact hE.old b (List.mem_append_right _ c')
      · rw [← hE.other b (by rw [List.mem_append, not_or]; exact ⟨c, c'⟩)]; exact hc.old b hb c
  refine ⟨((a, D'), l') :: t, ?_, ?_, ?_, ?_, ?_, ?_, ?_⟩
  · have := hp.erase (a, D)
    rw [List.erase_cons_head] at this
    exact this.cons _
  · intro p hpm
    rcases List.mem_cons.1 hpm with c | c
    · rw [c]; exact hD'
    · exact (hA p c).congr (keep p c)
  · rw [List.flatMap_cons]
    refine List.nodup_append.2 ⟨nb.1, nd.2.1, ?_⟩
    intro x hx y hy e
    obtain ⟨p, hpm, hb⟩ := List.mem_flatMap.1 hy
    exact (live p hpm y hb).2 (by rw [← e]; exact hx)
  · intro b hb
    rw [List.flatMap_cons, List.mem_append] at hb
    rcases hb with c | c
    · exact (nb.2 b c).1
    · exact hE.ne0 b (List.mem_append_right _ c)
  · intro b hb
    rw [List.flatMap_cons, List.mem_append] at hb
    rcases hb with c | c
    · exact new b c
    · exact hE.old b (List.mem_append_right _ c)
  · intro b hb
    rw [List.flatMap_cons, List.mem_append] at hb
    rcases hb with c | c
    · exact (nb.2 b c).2
    · obtain ⟨p, hpm, hb⟩ := List.mem_flatMap.1 c
      rw [keep p hpm b hb]; exact hE.live b (List.mem_append_right _ c)
  · intro b hb
    rw [List.flatMap_cons, List.mem_append, not_or] at hb
    have hb1 : b ∉ l' := hb.1
    by_cases c : b ∈ l
    · rw [hc.gone b c hb1, hE.old b (List.mem_append_left _ c)]
    · rw [hc.other b c hb1]; exact hE.other b (by rw [List.mem_append, not_or]; exact ⟨c, hb.2⟩)

theorem FieldAt.deg {m a e l} (h : FieldAt m a e l) : Has m a 0 e := h.2.2.1

theorem minOK_of_range {p : Word} (h : 2 ≤ p.toNat) (h' : p.toNat < 2 ^ 17) : MinOK p p.toNat.log2 := by
  have hne : p.toNat ≠ 0 := by omega
  have h1 : 2 ^ p.toNat.log2 ≤ p.toNat := Nat.log2_self_le hne
  have h2 : p.toNat < 2 ^ (p.toNat.log2 + 1) := Nat.lt_log2_self
  have e1 : 1 ≤ p.toNat.log2 := (Nat.le_log2 hne).2 (by omega)
  have e16 : p.toNat.log2 ≤ 16 := by
    have := (Nat.log2_lt hne).2 h'
    omega
  refine ⟨?_, e1, e16⟩
  have hb : BitsLt p (p.toNat.log2 + 1) := (bitsLt_iff _ _).2 h2
  have : (Spec.toPoly p).natDegree = gf2xDeg p := (gf2xDeg_natDegree p).symm
  rw [this]
  have hp0 : p ≠ 0#64 := by intro c; rw [c] at hne; exact hne rfl
  have t1 := gf2xDeg_top p hp0
  have t2 : p.getLsbD p.toNat.log2 = true := by
    rw [← BitVec.testBit_toNat]
    exact Nat.testBit_log2 hne
  rcases Nat.lt_trichotomy (gf2xDeg p) p.toNat.log2 with c | c | c
  · rw [gf2xDeg_bits p _ c] at t2; cases t2
  · exact c
  · have : p.getLsbD (gf2xDeg p) = false := hb _ (by omega)
    rw [this] at t1; cases t1

theorem step_post {m0 h m c} (i : Inv m0 h m) (hl : Legal h c) : Post true (step A h c) m fun h' m' => Inv m0 h' m' := by
  cases c with
  | field p =>
    have hm := minOK_of_range hl.1 hl.2
    refine post_bind (post_mono (gf2eInit_post hm hm.e1) ?_)
    rintro a m' ⟨_, l, h1, h2⟩
    exact i.add (D := .field p.toNat.log2) h1 h2
  | mzed k r c =>
    obtain ⟨e, he⟩ := hl
    obtain ⟨l0, hk⟩ := i.at he
    refine post_bind (post_mono (mzedInit_post (FieldAt.deg hk)) ?_)
    rintro a m' ⟨_, l, h1, h2⟩
    exact i.add (D := .mzed k) h1 h2
  | mzedWindow s r c =>
    obtain ⟨k, e, hs, he⟩ := hl
    obtain ⟨l0, hk⟩ := i.at he
    obtain ⟨l1, hs'⟩ := i.at hs
    unfold step
    simp only [i.kindAt hs]
    refine post_bind (post_mono (mzedInitWindow_post hs' (FieldAt.deg hk)) ?_)
    rintro a m' ⟨_, l, h1, h2⟩
    exact i.add (D := .mzed k) h1 h2
  | slice k r c =>
    obtain ⟨e, he, h16⟩ := hl
    obtain ⟨l0, hk⟩ := i.at he
    unfold step
    simp only [i.kindAt he]
    refine post_bind (post_mono (sliceInit_post (FieldAt.deg hk) h16) ?_)
    rintro a m' ⟨_, l, h1, h2⟩
    exact i.add (D := .slice k e) h1 h2
  | sliceWindow s r c =>
    obtain ⟨k, d, hs⟩ := hl
    obtain ⟨l1, hs'⟩ := i.at hs
    unfold step
    simp only [i.kindAt hs]
    refine post_bind (post_mono (sliceInitWindow_post hs') ?_)
    rintro a m' ⟨_, l, h1, h2⟩
    exact i.add (D := .slice k d) h1 h2
  | njt k c =>
    obtain ⟨e, he⟩ := hl
    obtain ⟨l0, hk⟩ := i.at he
    refine post_bind (post_mono (njtInit_post (FieldAt.deg hk)) ?_)
    rintro a m' ⟨_, l, ⟨h1, _⟩, h2⟩
    exact i.add (D := .njt k) h1 h2
  | poly d r c =>
    refine post_bind (post_mono polyInit_post ?_)
    rintro a m' ⟨_, l, h1, h2⟩
    exact i.add (D := .poly (d + 1) (d + 1)) h1 h2
  | blm same =>
    refine post_bind (post_mono blmInit_post ?_)
    rintro a m' ⟨_, l, h1, h2⟩
    exact i.add (D := .blm) h1 h2
  | free a =>
    obtain ⟨D, hD⟩ := hl
    obtain ⟨m', h1, h2⟩ := i.del hD
    unfold step
    simp only [i.kindAt hD]
    exact post_bind (post_of_ok h1 h2)
  | depth a n =>
    unfold step
    rcases hl with ⟨k, d, hm, hn⟩ | ⟨d, c, hm, hn⟩
    · simp only [i.kindAt hm]
      obtain ⟨l, t, hp, hD, hA, hE⟩ := i.split hm
      refine post_bind (post_mono (sliceAdaptDepth_post hD hn) ?_)
      rintro _ m' ⟨_, l', h1, h2⟩
      exact Inv.change (D' := .slice k n) hp hD hA hE h1 h2
    · simp only [i.kindAt hm]
      obtain ⟨l, t, hp, hD, hA, hE⟩ := i.split hm
      refine post_bind (post_mono (polyAdaptDepth_post hD hn) ?_)
      rintro _ m' ⟨_, l', h1, h2⟩
      exact Inv.change (D' := .poly n c) hp hD hA hE h1 h2
  | apply n =>
    refine post_bind (post_mono applyBlmDjb_post ?_)
    rintro _ m' rfl
    exact i
  | ext1 k d =>
    obtain ⟨⟨e, he, h16⟩, hd⟩ := hl
    obtain ⟨l0, hk⟩ := i.at he
    refine post_bind (post_mono (ext1Array_post (FieldAt.deg hk) h16 hd) ?_)
    rintro _ m' rfl
    exact i

theorem Reach.inv {m0 h m} (r : Reach A m0 h m) : Inv m0 h m := by
  induction r with
  | start => exact Inv.start _
  | call _ hl hs ih =>
    have := step_post (A := A) ih hl
    unfold Post at this
    rw [hs] at this
    exact this

end M4rie.Mem
