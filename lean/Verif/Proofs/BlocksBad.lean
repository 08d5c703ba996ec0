import Verif.Proofs.BlocksSession
/-! # Executions that go wrong -/
namespace M4rie.Mem

variable {A : Alloc}

/-- the execution does not return -/
def Never {α : Type} (x : M α) (m : Mem) : Prop := ∀ a m', x m ≠ .ok a m'

theorem never_bind {α β : Type} {x : M α} {f : α → M β} {m : Mem} (h : Post true x m fun a m' => Never (f a) m') : Never (x >>= f) m := by
  intro b m' hb
  unfold Post at h
  simp only [bind] at hb
  cases hx : x m with
  | ok a m1 => simp only [hx] at h hb; exact h b m' hb
  | dead => simp only [hx] at hb; cases hb
  | fault => simp only [hx] at hb; cases hb

theorem never_bind' {α β : Type} {x : M α} {f : α → M β} {m : Mem} (h : Never x m) : Never (x >>= f) m := by
  intro b m' hb
  simp only [bind] at hb
  cases hx : x m with
  | ok a m1 => exact h a m1 hx
  | dead => simp only [hx] at hb; cases hb
  | fault => simp only [hx] at hb; cases hb

theorem fault_bind {α β : Type} {x : M α} {f : α → M β} {m : Mem} (h : Post false x m fun a m' => f a m' = .fault) : (x >>= f) m = .fault := by
  unfold Post at h
  simp only [bind]
  cases hx : x m with
  | ok a m1 => simp only [hx] at h ⊢; exact h
  | dead => simp only [hx] at h; cases h
  | fault => rfl

theorem never_store {a i v n : Nat} {m : Mem} (h : Size m a n) (hi : n ≤ i) : Never (store a i v) m := by
  obtain ⟨b, h1, h2⟩ := h
  intro u m' hc
  unfold store at hc
  simp only [h1, if_neg (by omega : ¬ i < b.length)] at hc
  cases hc

theorem never_loop {f : Nat → M Unit} (I : Nat → Mem → Prop) {j : Nat} (hb : ∀ m', I j m' → Never (f j) m') :
    ∀ (n : Nat) {m : Mem}, j < n → I 0 m → (∀ i, i < j → ∀ m', I i m' → Post true (f i) m' fun _ => I (i + 1)) → Never (loop n f) m := by
  intro n
  induction n with
  | zero => intro m h; omega
  | succ n ih =>
    intro m hj h0 hs
    by_cases c : j < n
    · exact never_bind' (ih c h0 hs)
    · have e : j = n := by omega
      subst e
      exact never_bind (post_loop I j h0 hs hb)

theorem polyAdaptDepth_never {m a d c n l} (h : PolyAt m a d c l) (hn : c < n) : Never (polyAdaptDepth A a n) m := by
  obtain ⟨hb, hs, hd, hc, x, xs, hx, hsx, hl, hF, hp⟩ := h
  have hax : a ≠ x := by
    have := hp.nodup_iff.2 hb.1
    intro e
    rw [e] at this
    simp at this
  unfold polyAdaptDepth
  refine never_bind (post_load hd ?_)
  rw [if_neg (by omega)]
  refine never_bind' (never_loop (fun i m' => Has m' a 0 x ∧ Size m' x c) (j := c - d) ?_ (n - d) (by omega) ⟨hx, hsx⟩ ?_)
  · rintro m' ⟨h1, h2⟩
    refine never_bind (post_mzdInit fun y m1 n1 => ?_)
    refine never_bind (post_load (n1.has h1) ?_)
    exact never_store (n1.size h2) (by omega)
  · rintro i hi m' ⟨h1, h2⟩
    refine post_bind (post_mzdInit fun y m1 n1 => ?_)
    refine post_bind (post_load (n1.has h1) ?_)
    refine post_write (n1.size h2) (by omega) fun m2 w => ?_
    exact ⟨w.keep _ _ _ (n1.has h1) (.inl hax), w.size _ _ (n1.size h2)⟩

theorem sliceAdaptDepth_over {m a k d n l} (h : SliceAt m a k d l) (h16 : 16 < n) (hn : n ≤ 20) :
    Post true (sliceAdaptDepth A a n) m fun _ m' => ∃ x, Has m' a 16 x ∧ m x = none ∧ m' x ≠ none := by
  obtain ⟨hb, hs, hd, hk, he, xs, hl, hF, hp⟩ := h
  unfold sliceAdaptDepth
  refine post_bind (post_load hd ?_)
  rw [if_neg (by omega)]
  refine post_bind (post_loop (fun i m' => Size m' a 20 ∧ (∀ x, m x ≠ none → m' x ≠ none) ∧
    (16 < d + i → ∃ x, Has m' a 16 x ∧ m x = none ∧ m' x ≠ none)) (n - d) ⟨hs, fun x h => h, fun h => absurd h (by omega)⟩ ?_ ?_)
  · rintro i hi m' ⟨h1, h2, h3⟩
    refine post_bind (post_mzdInit fun y m1 n1 => ?_)
    refine post_write (n1.size h1) (by omega) fun m2 w => ?_
    have up : ∀ z, m' z ≠ none → m2 z ≠ none := by
      intro z hz
      by_cases c : z = a
      · rw [c]; exact w.still
      · rw [w.other z c, n1.other z (n1.ne hz)]; exact hz
    refine ⟨w.size _ _ (n1.size h1), fun x hx => up x (h2 x hx), fun h => ?_⟩
    by_cases c : d + i = 16
    · refine ⟨y, by rw [← c]; exact w.here, ?_, ?_⟩
      · by_cases e : m y = none
        · exact e
        · exact absurd n1.free (h2 y e)
      · by_cases e : y = a
        · rw [e]; exact w.still
        · rw [w.other y e, n1.self]; intro h; cases h
    · obtain ⟨x, a1, a2, a3⟩ := h3 (by omega)
      exact ⟨x, w.keep _ _ _ (n1.has a1) (.inr (by omega)), a2, up x a3⟩
  · rintro m' ⟨h1, h2, h3⟩
    obtain ⟨x, a1, a2, a3⟩ := h3 (by omega)
    refine post_write h1 (by omega) fun m2 w => ?_
    refine ⟨x, w.keep _ _ _ a1 (.inr (by decide)), a2, ?_⟩
    by_cases e : x = a
    · rw [e]; exact w.still
    · rw [w.other x e]; exact a3

theorem ext1Array_never {k e : Nat} {m : Mem} (hf : Has m k 0 e) (he : e ≤ 16) : Never (ext1Array A k 1) m := by
  unfold ext1Array
  refine never_bind (post_calloc fun c m1 n1 => ?_)
  have s1 : Size m1 c 1 := n1.mySize
  have e1 := (Ext.nil m).new n1
  refine never_bind (post_mono (sliceInit_post (e1.has hf) he) ?_)
  rintro x m2 ⟨_, l, _, hE⟩
  refine never_bind (post_write (hE.size s1) (by omega) fun m3 w => ?_)
  have hf3 : Has m3 k 0 e := w.keep _ _ _ (hE.has (e1.has hf)) (.inl (by intro h; rw [h] at hf; exact hf.live n1.free))
  refine never_bind (post_mono (sliceInit_post hf3 he) ?_)
  rintro y m4 ⟨_, l', _, hE'⟩
  exact never_bind' (never_store (hE'.size (w.size _ _ (hE.size s1))) (by omega))

/-- a map without programs -/
theorem blmInit_false {same : Bool} {m : Mem} (h0 : m 0 = none) :
    Post true (blmInit A false same) m fun f m' => blmFree f m' = .fault := by
  unfold blmInit
  refine post_bind (post_malloc fun a m1 n1 => ?_)
  have s1 : Size m1 a 6 := n1.mySize
  have z1 : m1 0 = none := by rw [n1.other 0 (Ne.symm n1.ne0)]; exact h0
  refine post_bind (post_mzdInit fun x m2 n2 => ?_)
  refine post_bind (post_write (n2.size s1) (by decide) fun m3 w3 => ?_)
  have s3 := w3.size _ _ (n2.size s1)
  have z3 : m3 0 = none := by rw [w3.other 0 (Ne.symm n1.ne0), n2.other 0 (Ne.symm n2.ne0)]; exact z1
  refine post_bind (post_write s3 (by decide) fun m4 w4 => ?_)
  have s4 := w4.size _ _ s3
  have z4 : m4 0 = none := by rw [w4.other 0 (Ne.symm n1.ne0)]; exact z3
  refine post_bind (post_mzdInit fun y m5 n5 => ?_)
  refine post_bind (post_write (n5.size s4) (by decide) fun m6 w6 => ?_)
  have s6 := w6.size _ _ (n5.size s4)
  have z6 : m6 0 = none := by rw [w6.other 0 (Ne.symm n1.ne0), n5.other 0 (Ne.symm n5.ne0)]; exact z4
  refine post_bind (post_write s6 (by decide) fun m7 w7 => ?_)
  have s7 := w7.size _ _ s6
  have z7 : m7 0 = none := by rw [w7.other 0 (Ne.symm n1.ne0)]; exact z6
  refine post_bind (post_mzdInit fun z m8 n8 => ?_)
  refine post_bind (post_write (n8.size s7) (by decide) fun m9 w9 => ?_)
  have s9 := w9.size _ _ (n8.size s7)
  have z9 : m9 0 = none := by rw [w9.other 0 (Ne.symm n1.ne0), n8.other 0 (Ne.symm n8.ne0)]; exact z7
  refine post_bind (post_write s9 (by decide) fun m10 w10 => ?_)
  have z10 : m10 0 = none := by rw [w10.other 0 (Ne.symm n1.ne0)]; exact z9
  show blmFree a m10 = .fault
  have x10 : Has m10 a 2 x := w10.keep _ _ _ (w9.keep _ _ _ (n8.has (w7.keep _ _ _ (w6.keep _ _ _ (n5.has (w4.keep _ _ _ w3.here
    (.inr (by decide)))) (.inr (by decide))) (.inr (by decide)))) (.inr (by decide))) (.inr (by decide))
  have f10 : Has m10 a 3 0 := w10.keep _ _ _ (w9.keep _ _ _ (n8.has (w7.keep _ _ _ (w6.keep _ _ _ (n5.has w4.here)
    (.inr (by decide))) (.inr (by decide)))) (.inr (by decide))) (.inr (by decide))
  have y10 : Has m10 a 4 y := w10.keep _ _ _ (w9.keep _ _ _ (n8.has (w7.keep _ _ _ w6.here (.inr (by decide)))) (.inr (by decide))) (.inr (by decide))
  have g10 : Has m10 a 5 0 := w10.keep _ _ _ (w9.keep _ _ _ (n8.has w7.here) (.inr (by decide))) (.inr (by decide))
  have h10 : Has m10 a 0 z := w10.keep _ _ _ w9.here (.inr (by decide))
  have l4 : ∀ q b, m3 q = some b → q ≠ a → m10 q = some b := by
    intro q b hq hqa
    rw [w10.other q hqa, w9.other q hqa, n8.keep (L := b)]
    rw [w7.other q hqa, w6.other q hqa, n5.keep (L := b)]
    rw [w4.other q hqa]; exact hq
  have hxa : x ≠ a := (n2.ne s1.live).symm
  have hya : y ≠ a := (n5.ne s4.live).symm
  have hza : z ≠ a := (n8.ne s7.live).symm
  have lx : m10 x ≠ none := by
    rw [l4 x _ (by rw [w3.other x hxa, n2.self]) hxa]; intro h; cases h
  have ly : m10 y ≠ none := by
    rw [w10.other y hya, w9.other y hya, n8.keep (L := [.val 0]) (by rw [w7.other y hya, w6.other y hya, n5.self])]; intro h; cases h
  have lz : m10 z ≠ none := by
    rw [w10.other z hza, w9.other z hza, n8.self]; intro h; cases h
  have hxy : x ≠ y := n5.ne (by rw [w4.other x hxa, w3.other x hxa, n2.self]; intro h; cases h)
  have hxz : x ≠ z := n8.ne (by rw [w7.other x hxa, w6.other x hxa, n5.keep (L := [.val 0]) (by rw [w4.other x hxa, w3.other x hxa, n2.self])]; intro h; cases h)
  have hyz : y ≠ z := n8.ne (by rw [w7.other y hya, w6.other y hya, n5.self]; intro h; cases h)
  unfold blmFree
  refine fault_bind (post_load x10 ?_)
  refine fault_bind (post_mzdFree lx fun m11 d11 => ?_)
  have c11 : ∀ {i v}, Has m10 a i v → Has m11 a i v := fun h => h.congr (d11.other a (Ne.symm hxa))
  refine fault_bind (post_load (c11 y10) ?_)
  refine fault_bind (post_mzdFree (by rw [d11.other y (Ne.symm hxy)]; exact ly) fun m12 d12 => ?_)
  have c12 : ∀ {i v}, Has m10 a i v → Has m12 a i v := fun h => (c11 h).congr (d12.other a (Ne.symm hya))
  refine fault_bind (post_load (c12 h10) ?_)
  refine fault_bind (post_mzdFree (by rw [d12.other z (Ne.symm hyz), d11.other z (Ne.symm hxz)]; exact lz) fun m13 d13 => ?_)
  have c13 : ∀ {i v}, Has m10 a i v → Has m13 a i v := fun h => (c12 h).congr (d13.other a (Ne.symm hza))
  have z13 : m13 0 = none := by
    rw [d13.other 0 (Ne.symm n8.ne0), d12.other 0 (Ne.symm n5.ne0), d11.other 0 (Ne.symm n2.ne0)]; exact z10
  refine fault_bind (post_load (c13 f10) ?_)
  refine fault_bind (post_load (c13 g10) ?_)
  rw [if_neg (by decide)]
  refine fault_bind (post_load (c13 f10) ?_)
  have hf : mzdFree 0 m13 = .fault := by unfold mzdFree; rw [z13]; rfl
  simp only [bind, hf]

end M4rie.Mem
