import Verif.Proofs.BlocksInit
/-! # Fields and bilinear maps: constructors -/
namespace M4rie.Mem

variable {A : Alloc}

theorem Size.has0 {m a n i} (h : m a = some (List.replicate n (.val 0))) (hi : i < n) : Has m a i 0 :=
  ⟨_, h, by rw [List.getElem?_replicate, if_pos hi]⟩

/-- filling a block whose address is known -/
theorem post_fillData {d : Bool} {p n k : Nat} {f : Nat → Nat} {v : Nat → Nat} {m : Mem} {Q : Unit → Mem → Prop} (hs : Size m p n)
    (hf : ∀ i, i < k → f i < n)
    (hQ : ∀ m', Size m' p n → (∀ x, x ≠ p → m' x = m x) → Q () m') : Post d (loop k fun i => store p (f i) (v i)) m Q := by
  refine post_loop (fun _ m' => Size m' p n ∧ ∀ x, x ≠ p → m' x = m x) k ⟨hs, fun _ _ => rfl⟩ ?_ ?_
  · rintro i hi m' ⟨h1, h2⟩
    refine post_write h1 (hf i hi) fun m2 w => ?_
    exact ⟨w.size _ _ h1, fun x hx => by rw [w.other x hx, h2 x hx]⟩
  · rintro m' ⟨h1, h2⟩; exact hQ m' h1 h2

theorem Ext.data {m0 l m m' p n} (h : Ext m0 l m) (hp : p ∈ l) (hs : Size m' p n) (ho : ∀ x, x ≠ p → m' x = m x) : Ext m0 l m' := by
  refine ⟨h.nodup, h.ne0, h.old, ?_, ?_⟩
  · intro x hx
    by_cases c : x = p
    · rw [c]; exact hs.live
    · rw [ho x c]; exact h.live x hx
  · intro x hx
    rw [ho x (fun c => hx (by rw [c]; exact hp))]; exact h.other x hx

theorem redSlot_lt {f : Word} {e : Nat} (h : MinOK f e) {i : Nat} (hi : i < 2 ^ e) : redSlot f e i < 2 ^ e := by
  unfold redSlot
  have he := h.e16
  refine shift_lt _ e (redTmp_bits h _ ?_)
  have : (2 : Nat) ^ e ≤ 2 ^ 16 := Nat.pow_le_pow_right (by decide) he
  rw [BitVec.toNat_ofNat, Nat.mod_eq_of_lt (by omega)]
  exact hi

theorem gf2eInit_post {f : Word} {e : Nat} (h : MinOK f e) (he : 1 ≤ e) {m : Mem} :
    Post true (gf2eInit A f) m fun a m' => a ≠ 0 ∧ ∃ l, FieldAt m' a e l ∧ Ext m l m' := by
  have h2 : 1 ≤ 2 ^ e := Nat.one_le_two_pow
  unfold gf2eInit
  refine post_bind (post_calloc fun a m1 n1 => ?_)
  have s1 : Size m1 a 5 := n1.mySize
  have e1 := (Ext.nil m).new n1
  have z1 : Has m1 a 4 0 := Size.has0 n1.self (by decide)
  rw [initDegree_eq h]
  refine post_bind (post_write s1 (by decide) fun m2 w2 => ?_)
  have s2 := w2.size _ _ s1
  have e2 := e1.wrote w2 (by simp)
  have z2 := w2.keep _ _ _ z1 (.inr (by decide))
  refine post_bind (post_write s2 (by decide) fun m3 w3 => ?_)
  have s3 := w3.size _ _ s2
  have e3 := e2.wrote w3 (by simp)
  have z3 := w3.keep _ _ _ z2 (.inr (by decide))
  have d3 := w3.keep _ _ _ w2.here (.inr (by decide))
  refine post_bind (post_calloc fun red m4 n4 => ?_)
  have s4 := n4.size s3
  have e4 := e3.new n4
  have nar : a ≠ red := n4.ne s3.live
  have sr4 : Size m4 red (2 ^ e) := by have := n4.mySize; rw [List.length_replicate] at this; exact this
  refine post_bind (post_write s4 (by decide) fun m5 w5 => ?_)
  have s5 := w5.size _ _ s4
  have e5 := e4.wrote w5 (by simp)
  have z5 := w5.keep _ _ _ (n4.has z3) (.inr (by decide))
  have d5 := w5.keep _ _ _ (n4.has d3) (.inr (by decide))
  refine post_bind (post_fillData (w5.size _ _ sr4) (fun i hi => redSlot_lt h (by omega)) fun m6 sr6 o6 => ?_)
  have s6 := s5.congr (o6 a nar)
  have e6 := e5.data (by simp) sr6 o6
  have z6 := z5.congr (o6 a nar)
  have d6 := d5.congr (o6 a nar)
  have r6 := w5.here.congr (o6 a nar)
  rw [if_neg (by omega)]
  refine post_bind (post_malloc fun pow m7 n7 => ?_)
  have s7 := n7.size s6
  have e7 := e6.new n7
  have nap : a ≠ pow := n7.ne s6.live
  have nrp : red ≠ pow := n7.ne sr6.live
  have sp7 : Size m7 pow (2 * e - 1) := by have := n7.mySize; rw [List.length_replicate] at this; exact this
  refine post_bind (post_write s7 (by decide) fun m8 w8 => ?_)
  have s8 := w8.size _ _ s7
  have e8 := e7.wrote w8 (by simp)
  have z8 := w8.keep _ _ _ (n7.has z6) (.inr (by decide))
  have d8 := w8.keep _ _ _ (n7.has d6) (.inr (by decide))
  have r8 := w8.keep _ _ _ (n7.has r6) (.inr (by decide))
  refine post_bind (post_fillData (w8.size _ _ sp7) (fun i hi => hi) fun m9 sp9 o9 => ?_)
  have s9 := s8.congr (o9 a nap)
  have e9 := e8.data (by simp) sp9 o9
  have z9 := z8.congr (o9 a nap)
  have d9 := d8.congr (o9 a nap)
  have r9 := r8.congr (o9 a nap)
  have p9 := w8.here.congr (o9 a nap)
  have sr9 : Size m9 red (2 ^ e) := (w8.size _ _ (n7.size sr6)).congr (o9 red nrp)
  by_cases c8 : e ≤ 8
  · rw [if_pos c8]
    refine post_bind (post_calloc fun mul m10 n10 => ?_)
    have s10 := n10.size s9
    have e10 := e9.new n10
    have nam : a ≠ mul := n10.ne s9.live
    have sm10 : Size m10 mul (2 ^ e) := by have := n10.mySize; rw [List.length_replicate] at this; exact this
    refine post_bind (post_write s10 (by decide) fun m11 w11 => ?_)
    have s11 := w11.size _ _ s10
    have e11 := e10.wrote w11 (by simp)
    have d11 := w11.keep _ _ _ (n10.has d9) (.inr (by decide))
    have r11 := w11.keep _ _ _ (n10.has r9) (.inr (by decide))
    have p11 := w11.keep _ _ _ (n10.has p9) (.inr (by decide))
    have sr11 := w11.size _ _ (n10.size sr9)
    have sp11 := w11.size _ _ (n10.size sp9)
    have sm11 := w11.size _ _ sm10
    refine post_bind (post_calloc fun row m12 n12 => ?_)
    have e12 := e11.new n12
    refine post_bind (post_write (n12.size sm11) (by omega) fun m13 w13 => ?_)
    have e13 := e12.wrote w13 (by simp)
    have srow : Size m12 row (2 ^ e) := by have := n12.mySize; rw [List.length_replicate] at this; exact this
    have F13 : Filled m13 mul 0 (2 ^ e) ([] ++ [row]) := (Filled.nil (m := m12)).push (by simpa using w13) srow
    have K {x j v} (hx : Has m11 x j v) (hne : x ≠ mul) : Has m13 x j v := w13.keep _ _ _ (n12.has hx) (.inl hne)
    have S {x n} (hx : Size m11 x n) : Size m13 x n := w13.size _ _ (n12.size hx)
    refine post_bind (post_loop (fun i m' => ∃ rows l, rows.length = i + 1 ∧ Filled m' mul 0 (2 ^ e) rows ∧ Ext m l m' ∧
      l.Perm (a :: pow :: red :: mul :: rows) ∧ Size m' a 5 ∧ Size m' pow (2 * e - 1) ∧ Size m' red (2 ^ e) ∧ Size m' mul (2 ^ e) ∧
      Has m' a 0 e ∧ Has m' a 2 pow ∧ Has m' a 3 red ∧ Has m' a 4 mul) (2 ^ e - 1)
      ⟨[row], row :: mul :: pow :: red :: [a], rfl, F13, e13, ?_, S s11, S sp11, S sr11, S sm11, K d11 nam, K p11 nam, K r11 nam, K w11.here nam⟩
      ?_ ?_)
    · have h1 : (row :: mul :: pow :: red :: [a]).Perm ([mul, pow, red, a] ++ [row]) := List.perm_append_comm (l₁ := [row])
      have h3 : [mul, pow, red, a].Perm ([pow, red, a] ++ [mul]) := List.perm_append_comm (l₁ := [mul])
      have h4 : [pow, red, a].Perm ([a] ++ [pow, red]) := List.perm_append_comm (l₁ := [pow, red])
      have h5 : [mul, pow, red, a].Perm [a, pow, red, mul] := h3.trans (h4.append_right [mul])
      exact h1.trans (h5.append_right [row])
    · rintro i hi m' ⟨rows, l, hl, hF, hE, hp, hs, hsp, hsr, hsm, hd, hpw, hr, hm⟩
      refine post_bind (post_calloc fun x m14 n14 => ?_)
      have sx14 : Size m14 x (2 ^ e) := by have := n14.mySize; rw [List.length_replicate] at this; exact this
      refine post_bind (post_write (n14.size hsm) (by omega) fun m15 w15 => ?_)
      have e15 := (hE.new n14).wrote w15 (List.mem_cons_of_mem _ (hp.mem_iff.2 (by simp)))
      have F15 : Filled m15 mul 0 (2 ^ e) (rows ++ [x]) := (hF.new n14).push (by rw [Nat.zero_add, hl]; exact w15) sx14
      have nx {y} (hy : m' y ≠ none) : y ≠ x := n14.ne hy
      refine post_fillData (w15.size _ _ sx14) (fun j hj => by omega) fun m16 sx16 o16 => ?_
      have e16 := e15.data (by simp) sx16 o16
      have K {y j v} (hy : Has m' y j v) (hne : y ≠ mul) : Has m16 y j v :=
        (w15.keep _ _ _ (n14.has hy) (.inl hne)).congr (o16 y (nx hy.live))
      have S {y n} (hy : Size m' y n) : Size m16 y n := (w15.size _ _ (n14.size hy)).congr (o16 y (nx hy.live))
      refine ⟨rows ++ [x], x :: l, by rw [List.length_append, hl]; rfl, ?_, e16, ?_, S hs, S hsp, S hsr, S hsm, K hd nam, K hpw nam, K hr nam, K hm nam⟩
      · intro j y hy
        by_cases c : y = x
        · subst c
          exact ⟨(F15 j y hy).1.congr (o16 mul (nx hsm.live)), sx16⟩
        · exact ⟨(F15 j y hy).1.congr (o16 mul (nx hsm.live)), (F15 j y hy).2.congr (o16 y c)⟩
      · exact perm_snoc x hp
    · rintro m' ⟨rows, l, hl, hF, hE, hp, hs, hsp, hsr, hsm, hd, hpw, hr, hm⟩
      refine post_pure ⟨n1.ne0, l, ⟨hE.blocks, hs, hd, pow, red, hpw, hr, hsp, hsr, .inl ⟨c8, mul, rows, hm, hsm, by omega, ?_, hp.symm⟩⟩, hE⟩
      intro i x hx
      have := hF i x hx
      rw [Nat.zero_add] at this
      exact this
  · rw [if_neg c8]
    refine post_pure ⟨n1.ne0, _, ⟨e9.blocks, s9, d9, pow, red, p9, r9, sp9, sr9, .inr ⟨by omega, z9, ?_⟩⟩, e9⟩
    exact (List.perm_append_comm (l₁ := [a]) (l₂ := [pow, red]))

theorem blmInit_post {same : Bool} {m : Mem} :
    Post true (blmInit A true same) m fun a m' => a ≠ 0 ∧ ∃ l, BlmAt m' a l ∧ Ext m l m' := by
  unfold blmInit
  refine post_bind (post_malloc fun a m1 n1 => ?_)
  have s1 : Size m1 a 6 := n1.mySize
  have e1 := (Ext.nil m).new n1
  refine post_bind (post_mzdInit fun F m2 n2 => ?_)
  have s2 := n2.size s1
  have e2 := e1.new n2
  refine post_bind (post_write s2 (by decide) fun m3 w3 => ?_)
  have s3 := w3.size _ _ s2
  have e3 := e2.wrote w3 (by simp)
  refine post_bind (post_write s3 (by decide) fun m4 w4 => ?_)
  have s4 := w4.size _ _ s3
  have e4 := e3.wrote w4 (by simp)
  have F4 := w4.keep _ _ _ w3.here (.inr (by decide))
  refine post_bind (post_mzdInit fun G m5 n5 => ?_)
  have s5 := n5.size s4
  have e5 := e4.new n5
  refine post_bind (post_write s5 (by decide) fun m6 w6 => ?_)
  have s6 := w6.size _ _ s5
  have e6 := e5.wrote w6 (by simp)
  have F6 := w6.keep _ _ _ (n5.has F4) (.inr (by decide))
  refine post_bind (post_write s6 (by decide) fun m7 w7 => ?_)
  have s7 := w7.size _ _ s6
  have e7 := e6.wrote w7 (by simp)
  have F7 := w7.keep _ _ _ F6 (.inr (by decide))
  have G7 := w7.keep _ _ _ w6.here (.inr (by decide))
  refine post_bind (post_mzdInit fun H m8 n8 => ?_)
  have s8 := n8.size s7
  have e8 := e7.new n8
  refine post_bind (post_write s8 (by decide) fun m9 w9 => ?_)
  have s9 := w9.size _ _ s8
  have e9 := e8.wrote w9 (by simp)
  have F9 := w9.keep _ _ _ (n8.has F7) (.inr (by decide))
  have G9 := w9.keep _ _ _ (n8.has G7) (.inr (by decide))
  refine post_bind (post_write s9 (by decide) fun m10 w10 => ?_)
  have s10 := w10.size _ _ s9
  have e10 := e9.wrote w10 (by simp)
  have F10 := w10.keep _ _ _ F9 (.inr (by decide))
  have G10 := w10.keep _ _ _ G9 (.inr (by decide))
  have H10 := w10.keep _ _ _ w9.here (.inr (by decide))
  rw [if_pos rfl]
  refine post_bind (post_mzdInit fun f m11 n11 => ?_)
  have s11 := n11.size s10
  have e11 := e10.new n11
  refine post_bind (post_write s11 (by decide) fun m12 w12 => ?_)
  have s12 := w12.size _ _ s11
  have e12 := e11.wrote w12 (by simp)
  have F12 := w12.keep _ _ _ (n11.has F10) (.inr (by decide))
  have G12 := w12.keep _ _ _ (n11.has G10) (.inr (by decide))
  have H12 := w12.keep _ _ _ (n11.has H10) (.inr (by decide))
  cases same with
  | true =>
    rw [if_pos rfl]
    refine post_bind (post_load w12.here ?_)
    refine post_bind (post_write s12 (by decide) fun m13 w13 => ?_)
    have s13 := w13.size _ _ s12
    have e13 := e12.wrote w13 (by simp)
    refine post_bind (post_mzdInit fun h m14 n14 => ?_)
    have s14 := n14.size s13
    have e14 := e13.new n14
    refine post_bind (post_write s14 (by decide) fun m15 w15 => ?_)
    have e15 := e14.wrote w15 (by simp)
    have K {j v} (hx : Has m12 a j v) (h5 : j ≠ 5) (h1 : j ≠ 1) : Has m15 a j v :=
      w15.keep _ _ _ (n14.has (w13.keep _ _ _ hx (.inr h5))) (.inr h1)
    refine post_pure ⟨n1.ne0, _, ⟨e15.blocks, w15.size _ _ s14, H, h, F, f, G, f, K H12 (by decide) (by decide), w15.here, K F12 (by decide) (by decide),
      K w12.here (by decide) (by decide), K G12 (by decide) (by decide), w15.keep _ _ _ (n14.has w13.here) (.inr (by decide)), .inl ⟨rfl, ?_⟩⟩, e15⟩
    rw [List.perm_iff_count]; intro z; simp only [List.count_cons, List.count_nil]; ring
  | false =>
    rw [if_neg (by decide)]
    refine post_bind (post_mzdInit fun g m13 n13 => ?_)
    have e13 := e12.new n13
    have nfg : f ≠ g := by
      refine n13.ne ?_
      rw [w12.other f (n11.ne s10.live).symm, n11.self]; intro c; cases c
    refine post_bind (post_write (n13.size s12) (by decide) fun m14 w14 => ?_)
    have s14 := w14.size _ _ (n13.size s12)
    have e14 := e13.wrote w14 (by simp)
    refine post_bind (post_mzdInit fun h m15 n15 => ?_)
    have s15 := n15.size s14
    have e15 := e14.new n15
    refine post_bind (post_write s15 (by decide) fun m16 w16 => ?_)
    have e16 := e15.wrote w16 (by simp)
    have K {j v} (hx : Has m12 a j v) (h5 : j ≠ 5) (h1 : j ≠ 1) : Has m16 a j v :=
      w16.keep _ _ _ (n15.has (w14.keep _ _ _ (n13.has hx) (.inr h5))) (.inr h1)
    refine post_pure ⟨n1.ne0, _, ⟨e16.blocks, w16.size _ _ s15, H, h, F, f, G, g, K H12 (by decide) (by decide), w16.here, K F12 (by decide) (by decide),
      K w12.here (by decide) (by decide), K G12 (by decide) (by decide), w16.keep _ _ _ (n15.has w14.here) (.inr (by decide)), .inr ⟨nfg, ?_⟩⟩, e16⟩
    rw [List.perm_iff_count]; intro z; simp only [List.count_cons, List.count_nil]; ring

end M4rie.Mem
