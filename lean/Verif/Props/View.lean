import Verif.Model.View
import Verif.Props.History

/-!
# Property C59: histories with windows

Every sequence of calls on matrices and windows into them, in both representations, behaves like the same sequence of operations on Mathlib matrices
of which some are rectangles of others.
-/

namespace M4rie.Props
open M4rie M4rie.Spec

variable {lib : Lib}

/-- a window may start at a column that starts a word -/
def alignedAt (lib : Lib) : Bool → Nat → Prop
  | false, c => degreeToW lib.ff.degree * c % 64 = 0
  | true, c => c % 64 = 0

/-- every window lies inside an existing matrix and starts at a word boundary -/
def WinOk (lib : Lib) (s : VState (Elem lib.ff)) : Prop :=
  ∀ k v, s.wins k = some v → s.bufs k = none ∧ s.wins v.root = none ∧
    ∃ X, s.bufs v.root = some X ∧ v.r + v.m ≤ X.m ∧ v.c + v.n ≤ X.n ∧ alignedAt lib X.sliced v.c

/-- the matrices of the program store the matrices of the abstract state, and the windows are the same -/
def VStores (lib : Lib) (c : VPool) (s : VState (Elem lib.ff)) : Prop :=
  Stores lib c.bufs s.bufs ∧ c.wins = s.wins ∧ WinOk lib s

variable [IsField lib.ff]

theorem ofFin_of {K : Type} [Zero K] {m n : Nat} (X : Matrix (Fin m) (Fin n) K) {i j : Nat} (hi : i < m) (hj : j < n) :
    ofFin X i j = X ⟨i, hi⟩ ⟨j, hj⟩ := dif_pos ⟨hi, hj⟩

/-- a window shows the rectangle -/
theorem Holds.cut {o : Obj} {X : AMat (Elem lib.ff)} (h : Holds lib o X) (v : View) (hm : v.r + v.m ≤ X.m) (hn : v.c + v.n ≤ X.n)
    (ha : alignedAt lib X.sliced v.c) : Holds lib (o.cut v) (X.cut v) := by
  obtain ⟨t, m, n, X⟩ := X
  cases o with
  | packed A =>
    cases t with
    | true => exact h.elim
    | false =>
      obtain ⟨h1, h2, h3, M, hM, hX⟩ := h
      have hw : A.w * v.c % 64 = 0 := by rw [hM.wEq]; exact ha
      refine (⟨h1, Nat.add_sub_cancel_left .., Nat.add_sub_cancel_left .., _, C43_window hM v.r v.c (v.r + v.m) (v.c + v.n) hw, fun i j => ?_⟩ :
        HoldsP lib (mzedWindow A v.r v.c (v.r + v.m) (v.c + v.n)) _)
      have hi : v.r + i.1 < m := lt_of_lt_of_le (by have := i.2; omega) hm
      have hj : v.c + j.1 < n := lt_of_lt_of_le (by have := j.2; omega) hn
      exact (hX ⟨_, hi⟩ ⟨_, hj⟩).trans (ofFin_of X hi hj).symm
  | sliced A =>
    cases t with
    | false => exact h.elim
    | true =>
      obtain ⟨h1, h2, h3, M, hM, hX⟩ := h
      obtain ⟨e1, e2, hW⟩ := C52_window hM v.r v.c (v.r + v.m) (v.c + v.n) ha
      refine (⟨h1, e1.trans (Nat.add_sub_cancel_left ..), e2.trans (Nat.add_sub_cancel_left ..), _, hW, fun i j => ?_⟩ :
        HoldsS lib (mzdSliceWindow A v.r v.c (v.r + v.m) (v.c + v.n)) _)
      have hi : v.r + i.1 < m := lt_of_lt_of_le (by have := i.2; omega) hm
      have hj : v.c + j.1 < n := lt_of_lt_of_le (by have := j.2; omega) hn
      exact (hX ⟨_, hi⟩ ⟨_, hj⟩).trans (ofFin_of X hi hj).symm

theorem VStores.look {c : VPool} {s : VState (Elem lib.ff)} (h : VStores lib c s) : Stores lib c.look s.look := by
  intro k
  unfold VPool.look VState.look
  rw [h.2.1]
  cases hk : s.wins k with
  | none => exact h.1 k
  | some v =>
    obtain ⟨-, -, X, hX, hm, hn, ha⟩ := h.2.2 k v hk
    have := h.1 v.root
    simp only [hX] at this ⊢
    cases hc : c.bufs v.root with
    | none => rw [hc] at this; exact this.elim
    | some o =>
      rw [hc] at this
      exact Holds.cut this v hm hn ha

/-- writing through a window changes the rectangle only -/
theorem Holds.paste {o w : Obj} {X Y : AMat (Elem lib.ff)} (h : Holds lib o X) (v : View) (hm : v.r + v.m ≤ X.m) (hn : v.c + v.n ≤ X.n)
    (ha : alignedAt lib X.sliced v.c) (hf : Frame lib (o.cut v) w) (hY : Holds lib w Y) : Holds lib (o.paste v w) (X.paste v Y) := by
  obtain ⟨t, m, n, X⟩ := X
  obtain ⟨t', m', n', Y⟩ := Y
  cases o with
  | packed A =>
    cases w with
    | sliced W => exact hf.elim
    | packed W =>
      cases t with
      | true => exact h.elim
      | false => cases t' with
        | true => exact hY.elim
        | false =>
          obtain ⟨h1, h2, h3, M, hM, hX⟩ := h
          obtain ⟨g1, g2, g3, N, hN, hY⟩ := hY
          obtain ⟨hd, hf⟩ := hf
          have hw : A.w * v.c % 64 = 0 := by rw [hM.wEq]; exact ha
          have hW := C43_window hM v.r v.c (v.r + v.m) (v.c + v.n) hw
          have d1 : m' = v.m := by rw [← g2, hd.nrows]; exact Nat.add_sub_cancel_left ..
          have d2 : n' = v.n := by rw [← g3, hd.ncols]; exact Nat.add_sub_cancel_left ..
          subst d1 d2
          refine (⟨h1, h2, h3, _, C43_window_write hM hN v.r v.c hw, fun i j => ?_⟩ :
            HoldsP lib { A with words := mzdWindowWrite A.words v.r (A.w * v.c) W.words } _)
          show (if v.r ≤ i.1 ∧ v.c ≤ j.1 then _ else _) = if _ then _ else _
          by_cases hq : v.r ≤ i.1 ∧ v.c ≤ j.1
          · rw [if_pos hq]
            by_cases hin : i.1 < v.r + v.m ∧ j.1 < v.c + v.n
            · rw [if_pos ⟨⟨hq.1, hin.1⟩, hq.2, hin.2⟩]
              have hi : i.1 - v.r < v.m := by omega
              have hj : j.1 - v.c < v.n := by omega
              exact (hY ⟨_, hi⟩ ⟨_, hj⟩).trans (ofFin_of Y hi hj).symm
            · rw [if_neg (fun hh => hin ⟨hh.1.2, hh.2.2⟩)]
              rw [hf _ _ hW hN (i.1 - v.r) (j.1 - v.c) (fun hh => hin (by
                have e1 : (mzedWindow A v.r v.c (v.r + v.m) (v.c + v.n)).nrows = v.m := Nat.add_sub_cancel_left ..
                have e2 : (mzedWindow A v.r v.c (v.r + v.m) (v.c + v.n)).ncols = v.n := Nat.add_sub_cancel_left ..
                rw [e1, e2] at hh
                omega))]
              rw [Nat.add_sub_cancel' hq.1, Nat.add_sub_cancel' hq.2]
              exact hX i j
          · rw [if_neg hq, if_neg (fun hh => hq ⟨hh.1.1, hh.2.1⟩)]
            exact hX i j
  | sliced A =>
    cases w with
    | packed W => exact hf.elim
    | sliced W =>
      cases t with
      | false => exact h.elim
      | true => cases t' with
        | false => exact hY.elim
        | true =>
          obtain ⟨h1, h2, h3, M, hM, hX⟩ := h
          obtain ⟨g1, g2, g3, N, hN, hY⟩ := hY
          obtain ⟨hd, hf⟩ := hf
          obtain ⟨e1, e2, hW⟩ := C52_window hM v.r v.c (v.r + v.m) (v.c + v.n) ha
          rw [Nat.add_sub_cancel_left] at e1 e2
          have d1 : m' = v.m := by rw [← g2, hd.nrows, e1]
          have d2 : n' = v.n := by rw [← g3, hd.ncols, e2]
          subst d1 d2
          obtain ⟨R, eR, hdR, hR⟩ := C52_window_write (f := fun _ => some W) hM v.r v.c (v.r + v.m) (v.c + v.n) ha rfl hN
          have eR' : R = sliceSetWindow A v.r v.c W := by
            unfold onSWindow at eR
            rw [Option.map_some] at eR
            exact (Option.some.inj eR).symm
          rw [eR'] at hR
          refine (⟨h1, h2, h3, _, hR, fun i j => ?_⟩ : HoldsS lib (sliceSetWindow A v.r v.c W) _)
          show (if v.r ≤ i.1 ∧ v.c ≤ j.1 then _ else _) = if _ then _ else _
          by_cases hq : v.r ≤ i.1 ∧ v.c ≤ j.1
          · rw [if_pos hq]
            by_cases hin : i.1 < v.r + v.m ∧ j.1 < v.c + v.n
            · rw [if_pos ⟨⟨hq.1, hin.1⟩, hq.2, hin.2⟩]
              have hi : i.1 - v.r < v.m := by omega
              have hj : j.1 - v.c < v.n := by omega
              exact (hY ⟨_, hi⟩ ⟨_, hj⟩).trans (ofFin_of Y hi hj).symm
            · rw [if_neg (fun hh => hin ⟨hh.1.2, hh.2.2⟩)]
              rw [hf _ _ hW hN (i.1 - v.r) (j.1 - v.c) (fun hh => hin (by rw [e1, e2] at hh; omega))]
              rw [Nat.add_sub_cancel' hq.1, Nat.add_sub_cancel' hq.2]
              exact hX i j
          · rw [if_neg hq, if_neg (fun hh => hq ⟨hh.1.1, hh.2.1⟩)]
            exact hX i j

/-- a call creates, releases or changes one variable, and keeps the dimensions of a variable it changes -/
theorem allowed_dest {K : Type} [Field K] [DecidableEq K] {bad : Nat → Nat → Prop} {s t : AState K} {op : Op K} {out : Out K}
    (h : Allowed bad s op out t) :
    (op.dest = none → t = s) ∧ ∀ d, op.dest = some d → (∀ k, k ≠ d → t k = s k) ∧
      ((∀ X Y, s d = some X → t d = some Y → Y.sliced = X.sliced ∧ Y.m = X.m ∧ Y.n = X.n)) ∧
      (t d = none → op = .free d) := by
  refine ⟨?_, ?_⟩
  · intro hd
    cases h <;> first | rfl | cases hd
  · intro d hd
    cases h <;> first | (cases hd; done) | skip
    all_goals (cases hd; refine ⟨fun k hk => if_neg hk, fun X Y h1 h2 => ?_, fun h2 => ?_⟩)
    all_goals first
      | (rw [AState.set, if_pos rfl] at h2; cases h2; done)
      | rfl
      | skip
    all_goals (rw [AState.set, if_pos rfl] at h2; cases h2)
    all_goals simp_all

/-- the variable `d` becomes what a call has left behind -/
theorem VStores.put_of {c : VPool} {s : VState (Elem lib.ff)} (h : VStores lib c s) {d : Nat} {p : Pool} {t : AState (Elem lib.ff)}
    (hdim : ∀ X Y, s.look d = some X → t d = some Y → Y.sliced = X.sliced ∧ Y.m = X.m ∧ Y.n = X.n)
    (ht : t d = none → s.wins d = none ∧ ∀ k v, s.wins k = some v → v.root ≠ d)
    (hp : Stores lib p t) (hf : Frames lib c.look p) : VStores lib (c.put d (p d)) (s.put d (t d)) := by
  have hpd := hp d
  have hlook := h.look
  obtain ⟨h1, h2, h3⟩ := h
  cases hw : s.wins d with
  | some v =>
    obtain ⟨hk, hr, X, hX, hm, hn, hal⟩ := h3 d v hw
    cases hY : t d with
    | none => rw [(ht hY).1] at hw; cases hw
    | some Y =>
      rw [hY] at hpd
      cases hW : p d with
      | none => rw [hW] at hpd; exact hpd.elim
      | some w =>
        rw [hW] at hpd
        have ho := h1 v.root
        rw [hX] at ho
        cases hO : c.bufs v.root with
        | none => rw [hO] at ho; exact ho.elim
        | some o =>
          rw [hO] at ho
          have hcl : c.look d = some (o.cut v) := by
            unfold VPool.look
            simp only [h2, hw, hO, Option.map_some]
          have hfr := hf d _ _ hcl hW
          have e1 : c.put d (some w) = { c with bufs := c.bufs.set v.root (some (o.paste v w)) } := by
            unfold VPool.put
            simp only [h2, hw, hO, Option.map_some]
          have e2 : s.put d (some Y) = { s with bufs := s.bufs.set v.root (some (X.paste v Y)) } := by
            unfold VState.put
            simp only [hw, hX, Option.map_some]
          rw [e1, e2]
          refine ⟨h1.set v.root (Holds.paste ho v hm hn hal hfr hpd), h2, fun k u hu => ?_⟩
          obtain ⟨a1, a2, Z, a3, a4, a5, a6⟩ := h3 k u hu
          have hkr : k ≠ v.root := fun e => by
            have hu' : s.wins k = some u := hu
            rw [e, hr] at hu'; cases hu'
          refine ⟨(if_neg hkr).trans a1, a2, ?_⟩
          by_cases hur : u.root = v.root
          · rw [hur, hX] at a3
            cases a3
            exact ⟨X.paste v Y, by rw [hur]; exact if_pos rfl, a4, a5, a6⟩
          · exact ⟨Z, (if_neg hur).trans a3, a4, a5, a6⟩
  | none =>
    have e1 : c.put d (p d) = { c with bufs := c.bufs.set d (p d) } := by
      unfold VPool.put
      simp only [h2, hw]
    have e2 : s.put d (t d) = { s with bufs := s.bufs.set d (t d) } := by
      unfold VState.put
      simp only [hw]
    rw [e1, e2]
    refine ⟨fun k => ?_, h2, fun k u hu => ?_⟩
    · unfold Pool.set AState.set
      by_cases hk : k = d
      · simp only [hk, if_true]; exact hpd
      · simp only [hk, if_false]; exact h1 k
    · obtain ⟨a1, a2, Z, a3, a4, a5, a6⟩ := h3 k u hu
      have hkd : k ≠ d := fun e => by
        have hu' : s.wins k = some u := hu
        rw [e, hw] at hu'; cases hu'
      refine ⟨(if_neg hkd).trans a1, a2, ?_⟩
      by_cases hur : u.root = d
      · cases hY : t d with
        | none => exact ((ht hY).2 k u hu hur).elim
        | some Y =>
          have hl : s.look d = some Z := by
            unfold VState.look
            simp only [hw]
            rw [← hur]; exact a3
          obtain ⟨b1, b2, b3⟩ := hdim Z Y hl hY
          refine ⟨Y, by rw [hur]; exact if_pos rfl, ?_, ?_, ?_⟩
          · rw [b2]; exact a4
          · rw [b3]; exact a5
          · rw [b1]; exact a6
      · exact ⟨Z, (if_neg hur).trans a3, a4, a5, a6⟩

theorem VStores.put {c : VPool} {s : VState (Elem lib.ff)} (h : VStores lib c s) {op : Op (Elem lib.ff)} {out : Out (Elem lib.ff)} {d : Nat}
    {p : Pool} {t : AState (Elem lib.ff)} (hd : op.dest = some d) (hc : s.Clear op) (ha : Allowed (badScalar lib) s.look op out t)
    (hp : Stores lib p t) (hf : Frames lib c.look p) : VStores lib (c.put d (p d)) (s.put d (t d)) := by
  obtain ⟨-, had⟩ := allowed_dest ha
  obtain ⟨-, hdim, hfree⟩ := had d hd
  exact h.put_of hdim (fun e => hc.2 d (hfree e)) hp hf

/-- the sum of two window offsets is a window offset -/
theorem alignedAt.add {t : Bool} {a b : Nat} (ha : alignedAt lib t a) (hb : alignedAt lib t b) : alignedAt lib t (a + b) := by
  cases t with
  | false =>
    show _ * (a + b) % 64 = 0
    have ha : degreeToW lib.ff.degree * a % 64 = 0 := ha
    have hb : degreeToW lib.ff.degree * b % 64 = 0 := hb
    rw [Nat.mul_add]; omega
  | true =>
    show (a + b) % 64 = 0
    have ha : a % 64 = 0 := ha
    have hb : b % 64 = 0 := hb
    omega

theorem alignedAt.zero (t : Bool) : alignedAt lib t 0 := by cases t <;> rfl

/-- **C59** one call: if it may be made, the library answers as the abstract operation, and the matrices and windows correspond again. -/
theorem C59_step (hlib : LibOk lib) {c : VPool} {s : VState (Elem lib.ff)} (h : VStores lib c s) {op : VOp (Elem lib.ff)}
    (hop : ∃ out s', VAllowed (badScalar lib) (alignedAt lib) s op out s') :
    ∃ c' out s', vcall lib c op = some (c', out) ∧ VAllowed (badScalar lib) (alignedAt lib) s op out s' ∧ VStores lib c' s' := by
  obtain ⟨out, s', hop⟩ := hop
  cases hop with
  | @read op out hd ha =>
    obtain ⟨p, out', t, e, ha', hp, hf⟩ := C58_step hlib h.look ⟨_, _, ha⟩
    refine ⟨c, out', s, ?_, .read hd ?_, h⟩
    · simp only [vcall, e, Option.map_some, hd]
    · rw [(allowed_dest ha').1 hd] at ha'; exact ha'
  | @write op out d t hd hc ha =>
    obtain ⟨p, out', t', e, ha', hp, hf⟩ := C58_step hlib h.look ⟨_, _, ha⟩
    refine ⟨c.put d (p d), out', s.put d (t' d), ?_, .write hd hc ha', h.put hd hc ha' hp hf⟩
    simp only [vcall, e, Option.map_some, hd]
  | @window d a lr lc hr hc X v hd hX hv h1 h2 h3 h4 h5 =>
    obtain ⟨k1, k2, k3⟩ := h
    have hkd : s.wins d = none ∧ s.bufs d = none := by
      unfold VState.look at hd
      cases hw : s.wins d with
      | none => rw [hw] at hd; exact ⟨rfl, hd⟩
      | some u =>
        obtain ⟨-, -, Z, hZ, -⟩ := k3 d u hw
        rw [hw] at hd
        simp only [hZ, Option.map_some] at hd
        cases hd
    have hwin : WinOk lib { s with wins := fun k => if k = d then some ⟨v.root, v.r + lr, v.c + lc, hr - lr, hc - lc⟩ else s.wins k } := by
      have hv' : s.wins v.root = none ∧ ∃ X, s.bufs v.root = some X ∧ v.r + hr ≤ X.m ∧ v.c + hc ≤ X.n ∧ alignedAt lib X.sliced (v.c + lc) := by
        unfold VState.place at hv
        unfold VState.look at hX
        cases hw : s.wins a with
        | none =>
          rw [hw] at hv hX
          simp only [] at hv hX
          rw [hX] at hv
          cases hv
          exact ⟨hw, X, hX, by simpa using h2, by simpa using h4, by simpa using h5⟩
        | some u =>
          rw [hw] at hv hX
          simp only [] at hv hX
          cases hv
          obtain ⟨-, a2, Z, a3, a4, a5, a6⟩ := k3 a _ hw
          rw [a3] at hX
          cases hX
          refine ⟨a2, Z, a3, ?_, ?_, a6.add h5⟩
          · have : hr ≤ v.m := h2
            omega
          · have : hc ≤ v.n := h4
            omega
      obtain ⟨b1, Z, b2, b3, b4, b5⟩ := hv'
      have hrd : v.root ≠ d := fun e => by rw [e, hkd.2] at b2; cases b2
      intro k u hu
      by_cases hk : k = d
      · simp only [hk, if_true] at hu
        cases hu
        exact ⟨hk ▸ hkd.2, (if_neg hrd).trans b1, Z, b2, by show v.r + lr + (hr - lr) ≤ _; omega, by show v.c + lc + (hc - lc) ≤ _; omega, b5⟩
      · simp only [hk, if_false] at hu
        obtain ⟨a1, a2, Z, a3, a4, a5, a6⟩ := k3 k u hu
        exact ⟨a1, (if_neg (fun e => by rw [e, hkd.2] at a3; cases a3)).trans a2, Z, a3, a4, a5, a6⟩
    unfold VState.place at hv
    cases hw : s.wins a with
    | none =>
      rw [hw] at hv
      simp only [] at hv
      have hb : ∃ o, c.bufs a = some o := by
        have := k1 a
        cases hs : s.bufs a with
        | none => rw [hs] at hv; cases hv
        | some Z =>
          rw [hs] at this
          cases hc : c.bufs a with
          | none => rw [hc] at this; exact this.elim
          | some o => exact ⟨o, rfl⟩
      obtain ⟨o, hb⟩ := hb
      have hv' : v.root = a ∧ v.r = 0 ∧ v.c = 0 := by
        cases hs : s.bufs a with
        | none => rw [hs] at hv; cases hv
        | some Z => rw [hs] at hv; cases hv; exact ⟨rfl, rfl, rfl⟩
      refine ⟨{ c with wins := fun k => if k = d then some ⟨v.root, v.r + lr, v.c + lc, hr - lr, hc - lc⟩ else c.wins k }, _, _, ?_, .window hd hX (by unfold VState.place; rw [hw]; exact hv) h1 h2 h3 h4 h5, ⟨k1, ?_, hwin⟩⟩
      · simp only [vcall, k2, hw, hb, hv'.1, hv'.2.1, hv'.2.2, Nat.zero_add]
      · simp only [k2]
    | some u =>
      rw [hw] at hv
      cases hv
      refine ⟨{ c with wins := fun k => if k = d then some ⟨v.root, v.r + lr, v.c + lc, hr - lr, hc - lc⟩ else c.wins k }, _, _, ?_, .window hd hX (by unfold VState.place; rw [hw]) h1 h2 h3 h4 h5, ⟨k1, ?_, hwin⟩⟩
      · simp only [vcall, k2, hw]
      · simp only [k2]
  | @freeWindow d v hd =>
    obtain ⟨k1, k2, k3⟩ := h
    refine ⟨{ c with wins := fun k => if k = d then none else c.wins k }, _, _, ?_, .freeWindow hd, ⟨k1, ?_, ?_⟩⟩
    · simp only [vcall, k2, hd]
    · simp only [k2]
    · intro k u hu
      by_cases hk : k = d
      · simp only [hk, if_true] at hu; cases hu
      · simp only [hk, if_false] at hu
        obtain ⟨a1, a2, r⟩ := k3 k u hu
        refine ⟨a1, ?_, r⟩
        by_cases hr : u.root = d
        · exact if_pos hr
        · exact (if_neg hr).trans a2

/-- **C59** every sequence of calls with windows that may be made is answered as the abstract operations are, and never dies. -/
theorem C59_history (hlib : LibOk lib) : ∀ (ops : List (VOp (Elem lib.ff))) {c : VPool} {s : VState (Elem lib.ff)}, VStores lib c s →
    VSafe (badScalar lib) (alignedAt lib) s ops →
    ∃ c' outs s', runViews lib c ops = some (c', outs) ∧ VRuns (badScalar lib) (alignedAt lib) s ops outs s' ∧ VStores lib c' s' := by
  intro ops
  induction ops with
  | nil => intro c s h _; exact ⟨c, [], s, rfl, .nil s, h⟩
  | cons op ops ih =>
    intro c s h hs
    obtain ⟨c1, out, s1, e1, h1, g1⟩ := C59_step hlib h hs.1
    obtain ⟨c2, outs, s2, e2, h2, g2⟩ := ih g1 (hs.2 _ _ h1)
    exact ⟨c2, out :: outs, s2, by simp only [runViews, e1, Option.bind_some, e2, Option.map_some], .cons h1 h2, g2⟩

/-- the only call whose result the specification leaves open is the echelon form that need not be reduced -/
theorem vallowed_unique {K : Type} [Field K] [DecidableEq K] {bad : Nat → Nat → Prop} {al : Bool → Nat → Prop} {s s1 s2 : VState K} {op : VOp K}
    {o1 o2 : Out K} (h1 : VAllowed bad al s op o1 s1) (h2 : VAllowed bad al s op o2 s2) (hne : ∀ d, op ≠ .call (.echelonize d false)) :
    o1 = o2 ∧ s1 = s2 := by
  cases h1 with
  | read hd ha => cases h2 with
    | read hd' ha' => exact ⟨(allowed_unique ha ha' rfl (fun d e => hne d (by rw [e]))).1, rfl⟩
    | write hd' => rw [hd] at hd'; cases hd'
  | write hd hc ha => cases h2 with
    | read hd' ha' => rw [hd] at hd'; cases hd'
    | write hd' hc' ha' =>
      obtain ⟨rfl, rfl⟩ := allowed_unique ha ha' rfl (fun d e => hne d (by rw [e]))
      rw [hd] at hd'
      cases hd'
      exact ⟨rfl, rfl⟩
  | window _ _ hv => cases h2 with
    | window _ _ hv' => rw [hv] at hv'; cases hv'; exact ⟨rfl, rfl⟩
  | freeWindow => cases h2; exact ⟨rfl, rfl⟩

theorem vsafe_cons {K : Type} [Field K] [DecidableEq K] {bad : Nat → Nat → Prop} {al : Bool → Nat → Prop} {s s1 : VState K} {op : VOp K}
    {ops : List (VOp K)} {out : Out K} (h1 : VAllowed bad al s op out s1) (hne : ∀ d, op ≠ .call (.echelonize d false))
    (h2 : VSafe bad al s1 ops) : VSafe bad al s (op :: ops) :=
  ⟨⟨_, _, h1⟩, fun out' s' h' => by rw [← (vallowed_unique h1 h' hne).2]; exact h2⟩

theorem vruns_unique {K : Type} [Field K] [DecidableEq K] {bad : Nat → Nat → Prop} {al : Bool → Nat → Prop} : ∀ {ops : List (VOp K)} {s : VState K}
    {o1 o2 : List (Out K)} {s1 s2 : VState K}, VRuns bad al s ops o1 s1 → VRuns bad al s ops o2 s2 →
    (∀ d, VOp.call (.echelonize d false) ∉ ops) → o1 = o2 ∧ s1 = s2 := by
  intro ops
  induction ops with
  | nil => intro s o1 o2 s1 s2 h1 h2 _; cases h1; cases h2; exact ⟨rfl, rfl⟩
  | cons op ops ih =>
    intro s o1 o2 s1 s2 h1 h2 hne
    cases h1 with
    | cons a1 r1 => cases h2 with
      | cons a2 r2 =>
        obtain ⟨rfl, rfl⟩ := vallowed_unique a1 a2 (fun d h => hne d (by rw [h]; simp))
        obtain ⟨rfl, rfl⟩ := ih r1 r2 (fun d h => hne d (List.mem_cons_of_mem _ h))
        exact ⟨rfl, rfl⟩

/-- **C59** for a program with windows that has an abstract run `outs` and only asks for reduced echelon forms, the library returns exactly `outs`
and leaves exactly the matrices of the abstract run behind. -/
theorem C59_deterministic (hlib : LibOk lib) {ops : List (VOp (Elem lib.ff))} {c : VPool} {s s' : VState (Elem lib.ff)}
    {outs : List (Out (Elem lib.ff))} (h : VStores lib c s) (hr : VRuns (badScalar lib) (alignedAt lib) s ops outs s')
    (hne : ∀ d, VOp.call (.echelonize d false) ∉ ops) : ∃ c', runViews lib c ops = some (c', outs) ∧ VStores lib c' s' := by
  have hs : VSafe (badScalar lib) (alignedAt lib) s ops := by
    clear h
    induction hr with
    | nil => trivial
    | cons a r ih => exact vsafe_cons a (fun d h => hne d (by rw [h]; simp)) (ih (fun d h => hne d (List.mem_cons_of_mem _ h)))
  obtain ⟨c', outs', s'', e, h1, h2⟩ := C59_history hlib ops h hs
  obtain ⟨rfl, rfl⟩ := vruns_unique hr h1 hne
  exact ⟨c', e, h2⟩

/-- **C59** a window into a window is a window into the matrix (packed) ... -/
theorem C59_window_of_window_packed {A : Mzed} {M : Nat → Nat → Elem lib.ff} (hA : Rep A M) (r c m n lr lc hr hc : Nat)
    (h1 : A.w * c % 64 = 0) (h2 : A.w * lc % 64 = 0) :
    mzedWindow (mzedWindow A r c (r + m) (c + n)) lr lc hr hc = mzedWindow A (r + lr) (c + lc) (r + hr) (c + hc) := by
  have hw : degreeToW A.ff.degree = A.w := by rw [hA.ffEq, hA.wEq]
  unfold mzedWindow mzdWindow
  simp only [hw]
  congr 1
  · omega
  · omega
  · funext i b
    rw [Nat.mul_add, show (A.w * c + A.w * lc) / 64 = A.w * c / 64 + A.w * lc / 64 by omega, Nat.add_assoc, Nat.add_assoc]

omit [IsField lib.ff] in
/-- ... and sliced -/
theorem C59_window_of_window_sliced {A : Slice} (r c m n lr lc hr hc : Nat) (h1 : c % 64 = 0) (h2 : lc % 64 = 0) :
    mzdSliceWindow (mzdSliceWindow A r c (r + m) (c + n)) lr lc hr hc = mzdSliceWindow A (r + lr) (c + lc) (r + hr) (c + hc) := by
  unfold mzdSliceWindow mzdWindow
  simp only []
  congr 1
  · omega
  · omega
  · funext k i b
    rw [show (c + lc) / 64 = c / 64 + lc / 64 by omega, Nat.add_assoc, Nat.add_assoc]

/-- the words (row, index in the row) in which entries of the rectangle `v` are kept, `w` bits each -/
def View.words (v : View) (w : Nat) : Set (Nat × Nat) :=
  {p | ∃ j b, v.r ≤ p.1 ∧ p.1 < v.r + v.m ∧ v.c ≤ j ∧ j < v.c + v.n ∧ b < w ∧ p.2 = (w * j + b) / 64}

/-- **C59** windows without a common entry have no word in common: the code may read and write whole words of the one while the other is in use.
(`w = 1` for each of the matrices a sliced matrix consists of.) -/
theorem C59_disjoint_words {w : Nat} {v u : View} (hv : w * v.c % 64 = 0) (hu : w * u.c % 64 = 0) (hr : v.root = u.root)
    (h : v.Disjoint u) : _root_.Disjoint (View.words v w) (View.words u w) := by
  rw [Set.disjoint_left]
  rintro ⟨i, q⟩ ⟨j, b, h1, h2, h3, h4, h5, h6⟩ ⟨j', b', g1, g2, g3, g4, g5, g6⟩
  simp only [] at *
  rcases h with h | h | h | h | h
  · exact h hr
  · omega
  · omega
  · have : (w * j + b) / 64 < (w * j' + b') / 64 := by
      have a1 : w * j + w ≤ w * u.c := by rw [← Nat.mul_succ]; exact Nat.mul_le_mul_left _ (by omega)
      have a2 : w * u.c ≤ w * j' := Nat.mul_le_mul_left _ g3
      omega
    omega
  · have : (w * j' + b') / 64 < (w * j + b) / 64 := by
      have a1 : w * j' + w ≤ w * v.c := by rw [← Nat.mul_succ]; exact Nat.mul_le_mul_left _ (by omega)
      have a2 : w * v.c ≤ w * j := Nat.mul_le_mul_left _ h3
      omega
    omega

-- two windows side by side in a packed matrix over GF(2^3) (4 bits per entry): the first ends inside a word, the second starts at the next one
example : 4 * 16 % 64 = 0 ∧ 4 * 32 % 64 = 0 ∧ View.Disjoint ⟨0, 0, 16, 10, 13⟩ ⟨0, 0, 32, 10, 5⟩ := by
  refine ⟨by decide, by decide, ?_⟩
  unfold View.Disjoint; decide

/-- **C59** (a consequence) multiplying into a window: the rectangle of the big matrix becomes the product and the rest of it stays, for every
size, position, representation and field. -/
theorem C59_mul_into_window (hlib : LibOk lib) {t : Bool} {M N m k n r c : Nat} {C : Matrix (Fin M) (Fin N) (Elem lib.ff)}
    {A : Matrix (Fin m) (Fin k) (Elem lib.ff)} {B : Matrix (Fin k) (Fin n) (Elem lib.ff)} (hn : 0 < n) (hm : r + m ≤ M) (hN : c + n ≤ N)
    (hal : alignedAt lib t c) {p : VPool} {s : VState (Elem lib.ff)} (h : VStores lib p s) (h0 : s.bufs 0 = some ⟨t, M, N, C⟩)
    (h1 : s.bufs 1 = some ⟨t, m, k, A⟩) (h2 : s.bufs 2 = some ⟨t, k, n, B⟩) (h3 : s.bufs 3 = none) (hw : ∀ i, s.wins i = none) :
    ∃ p', runViews lib p [.window 3 0 r c (r + m) (c + n), .call (.mul 3 1 2), .freeWindow 3] = some (p', [.unit, .unit, .unit]) ∧
      Stores lib p'.bufs (s.bufs.set 0 (some ⟨t, M, N, fun i j =>
        if h : (r ≤ i.1 ∧ i.1 < r + m) ∧ c ≤ j.1 ∧ j.1 < c + n then (A * B) ⟨i - r, by omega⟩ ⟨j - c, by omega⟩ else C i j⟩)) := by
  have hl : ∀ i, s.look i = s.bufs i := fun i => by unfold VState.look; simp only [hw i]
  let v : View := ⟨0, 0 + r, 0 + c, (r + m) - r, (c + n) - c⟩
  let s1 : VState (Elem lib.ff) := { s with wins := fun k => if k = 3 then some v else s.wins k }
  have hv : v = ⟨0, r, c, m, n⟩ := by simp [v]
  have hw1 : ∀ i, i ≠ 3 → s1.wins i = none := fun i hi => (if_neg hi).trans (hw i)
  have hw3 : s1.wins 3 = some v := rfl
  have hl1 : ∀ i, i ≠ 3 → s1.look i = s.bufs i := fun i hi => by unfold VState.look; simp only [hw1 i hi]; rfl
  have hl3 : s1.look 3 = some (AMat.cut ⟨t, M, N, C⟩ v) := by
    unfold VState.look
    rw [hw3]
    show (s.bufs v.root).map _ = _
    rw [hv]
    show (s.bufs 0).map _ = _
    rw [h0]; rfl
  have hcl : s1.Clear (.mul 3 1 2) := by
    refine ⟨?_, fun d e => by cases e⟩
    intro d hd a ha hne u hu w hw'
    cases Option.mem_some_iff.1 hd
    left
    have e1 : s1.place 3 = some v := by unfold VState.place; rw [hw3]
    have e2 : ∀ a, a ≠ 3 → s1.place a = (s.bufs a).map fun X => ⟨a, 0, 0, X.m, X.n⟩ := fun a ha => by
      unfold VState.place; simp only [hw1 a ha]; rfl
    rw [e1] at hu
    cases Option.mem_some_iff.1 hu
    have ha' : a = 1 ∨ a = 2 := by simpa [Op.sources] using ha
    rcases ha' with rfl | rfl
    · rw [e2 _ (by decide), h1] at hw'
      cases Option.mem_some_iff.1 hw'
      rw [hv]; simp
    · rw [e2 _ (by decide), h2] at hw'
      cases Option.mem_some_iff.1 hw'
      rw [hv]; simp
  have hmul : Allowed (badScalar lib) s1.look (.mul 3 1 2) .unit (s1.look.set 3 (some ⟨t, m, n, A * B⟩)) := by
    refine .mul (X := A) (Y := B) (Z := (fun i j => ofFin C (r + i) (c + j))) ?_ ((hl1 1 (by decide)).trans h1)
      ((hl1 2 (by decide)).trans h2) (by decide) (by decide) hn
    rw [hl3, hv]; rfl
  have run : VRuns (badScalar lib) (alignedAt lib) s [.window 3 0 r c (r + m) (c + n), .call (.mul 3 1 2), .freeWindow 3] [.unit, .unit, .unit]
      { s1.put 3 (some ⟨t, m, n, A * B⟩) with wins := fun k => if k = 3 then none else (s1.put 3 (some ⟨t, m, n, A * B⟩)).wins k } := by
    refine .cons (.window (v := ⟨0, 0, 0, M, N⟩) ((hl 3).trans h3) ((hl 0).trans h0) ?_ (by omega) hm (by omega) hN hal)
      (.cons (.write (d := 3) rfl hcl hmul) (.cons (.freeWindow (v := v) ?_) (.nil _)))
    · unfold VState.place; rw [hw 0]; simp only [h0, Option.map_some]
    · rw [set_self]; rfl
  obtain ⟨p', e, hst⟩ := C59_deterministic hlib h run (by intro d; simp)
  refine ⟨p', e, ?_⟩
  have hb : (s1.put 3 (some ⟨t, m, n, A * B⟩)).bufs = s.bufs.set 0 (some (AMat.paste ⟨t, M, N, C⟩ v ⟨t, m, n, A * B⟩)) := by
    unfold VState.put
    rw [hw3]
    simp only []
    rw [hv]
    show s.bufs.set 0 ((s.bufs 0).map _) = _
    rw [h0]; rfl
  have := hst.1
  rw [show ({ s1.put 3 (some ⟨t, m, n, A * B⟩) with wins := fun k => if k = 3 then none else (s1.put 3 (some ⟨t, m, n, A * B⟩)).wins k } :
    VState (Elem lib.ff)).bufs = _ from hb, hv] at this
  convert this using 4
  unfold AMat.paste
  simp only []
  congr 1
  funext i j
  by_cases hh : (r ≤ i.1 ∧ i.1 < r + m) ∧ c ≤ j.1 ∧ j.1 < c + n
  · rw [dif_pos hh, if_pos hh, ofFin_of _ (by omega) (by omega)]
  · rw [dif_neg hh, if_neg hh]

-- matrices meeting the hypotheses of `C59_mul_into_window`: a 3 x 4 product written to column 64 of a 70 x 130 sliced matrix
example : ∃ ff, ∃ _ : IsField ff, LibOk (stdLib ff) ∧ alignedAt (stdLib ff) true 64 ∧ ∃ (C : Matrix (Fin 70) (Fin 130) (Elem ff))
    (A : Matrix (Fin 3) (Fin 5) (Elem ff)) (B : Matrix (Fin 5) (Fin 4) (Elem ff)) (p : VPool) (s : VState (Elem ff)), VStores (stdLib ff) p s ∧
    s.bufs 0 = some ⟨true, 70, 130, C⟩ ∧ s.bufs 1 = some ⟨true, 3, 5, A⟩ ∧ s.bufs 2 = some ⟨true, 5, 4, B⟩ ∧ s.bufs 3 = none ∧
    ∀ i, s.wins i = none := by
  obtain ⟨ff, h, hd⟩ := exists_aes
  have key : ∀ m n : Nat, HoldsS (stdLib ff) (Mat.spack (ff := ff) ⟨m, n, 0, fun _ _ => 1⟩) (fun (_ : Fin m) (_ : Fin n) => (1 : Elem ff)) :=
    fun m n => ⟨rfl, rfl, rfl, _, spack_rep (ff := ff) _, fun _ _ => rfl⟩
  refine ⟨ff, h, stdLib_ok ff, rfl, fun _ _ => 1, fun _ _ => 1, fun _ _ => 1,
    ⟨fun k => if k = 0 then some (.sliced (Mat.spack (ff := ff) ⟨70, 130, 0, fun _ _ => 1⟩)) else if k = 1 then
      some (.sliced (Mat.spack (ff := ff) ⟨3, 5, 0, fun _ _ => 1⟩)) else if k = 2 then some (.sliced (Mat.spack (ff := ff) ⟨5, 4, 0, fun _ _ => 1⟩))
      else none, fun _ => none⟩,
    ⟨fun k => if k = 0 then some ⟨true, 70, 130, fun _ _ => 1⟩ else if k = 1 then some ⟨true, 3, 5, fun _ _ => 1⟩ else if k = 2 then
      some ⟨true, 5, 4, fun _ _ => 1⟩ else none, fun _ => none⟩, ⟨fun k => ?_, rfl, fun k v hv => by cases hv⟩, rfl, rfl, rfl, rfl, fun _ => rfl⟩
  by_cases h0 : k = 0
  · subst h0; exact key 70 130
  · by_cases h1 : k = 1
    · subst h1; exact key 3 5
    · by_cases h2 : k = 2
      · subst h2; exact key 5 4
      · simp only [h0, h1, h2, if_false]

/-- **C59** (a consequence) an element written through a window into a window is read back from the matrix, for every size, position,
representation and field; every other element of the matrix is what it was. -/
theorem C59_nested_write (hlib : LibOk lib) {t : Bool} {M N r c m n r' c' m' n' : Nat} {C : Matrix (Fin M) (Fin N) (Elem lib.ff)} (x : Elem lib.ff)
    (h1 : r + m ≤ M) (h2 : c + n ≤ N) (h3 : r' + m' ≤ m) (h4 : c' + n' ≤ n) (hal : alignedAt lib t c) (hal' : alignedAt lib t c')
    (i : Fin m') (j : Fin n') (a : Fin M) (b : Fin N) {p : VPool} {s : VState (Elem lib.ff)} (h : VStores lib p s)
    (h0 : s.bufs 0 = some ⟨t, M, N, C⟩) (hb : ∀ k, 1 ≤ k → s.bufs k = none) (hw : ∀ i, s.wins i = none) :
    ∃ p', runViews lib p [.window 1 0 r c (r + m) (c + n), .window 2 1 r' c' (r' + m') (c' + n'), .call (.writeElem 2 i j x), .call (.readElem 0 a b)] =
      some (p', [.unit, .unit, .unit, .elem (if a.1 = r + r' + i ∧ b.1 = c + c' + j then x else C a b)]) := by
  let v1 : View := ⟨0, 0 + r, 0 + c, r + m - r, c + n - c⟩
  let v2 : View := ⟨0, 0 + r + r', 0 + c + c', r' + m' - r', c' + n' - c'⟩
  have hv1 : v1 = ⟨0, r, c, m, n⟩ := by simp [v1]
  have hv2 : v2 = ⟨0, r + r', c + c', m', n'⟩ := by simp [v2]
  let s1 : VState (Elem lib.ff) := { s with wins := fun k => if k = 1 then some v1 else s.wins k }
  let s2 : VState (Elem lib.ff) := { s1 with wins := fun k => if k = 2 then some v2 else s1.wins k }
  have hl : ∀ i, s.look i = s.bufs i := fun i => by unfold VState.look; simp only [hw i]
  have hr1 : v1.root = 0 := rfl
  have hr2 : v2.root = 0 := rfl
  have hl11 : s1.look 1 = some (AMat.cut ⟨t, M, N, C⟩ v1) := by
    unfold VState.look
    rw [show s1.wins 1 = some v1 from rfl]
    simp only [hr1, show s1.bufs 0 = _ from h0, Option.map_some]
  have hl12 : s1.look 2 = none := by
    unfold VState.look
    rw [show s1.wins 2 = none from hw 2]
    exact hb 2 (by omega)
  have hl22 : s2.look 2 = some (AMat.cut ⟨t, M, N, C⟩ v2) := by
    unfold VState.look
    rw [show s2.wins 2 = some v2 from rfl]
    simp only [hr2, show s2.bufs 0 = _ from h0, Option.map_some]
  have hl22' : s2.look 2 = some ⟨t, m', n', fun i j => ofFin C (r + r' + i) (c + c' + j)⟩ := by
    rw [hl22, hv2]; rfl
  let Y : AMat (Elem lib.ff) := ⟨t, m', n', fun p q => if p = i ∧ q = j then x else ofFin C (r + r' + p) (c + c' + q)⟩
  let s3 := s2.put 2 (some Y)
  have hs3 : s3 = { s2 with bufs := s.bufs.set 0 (some (AMat.paste ⟨t, M, N, C⟩ v2 Y)) } := by
    show s2.put 2 (some Y) = _
    unfold VState.put
    rw [show s2.wins 2 = some v2 from rfl]
    simp only [hr2, show s2.bufs 0 = _ from h0, Option.map_some]
    rfl
  have hl30 : s3.look 0 = some (AMat.paste ⟨t, M, N, C⟩ v2 Y) := by
    rw [hs3]
    unfold VState.look
    simp only [show s2.wins 0 = none from hw 0]
    exact if_pos rfl
  have hval : (AMat.paste ⟨t, M, N, C⟩ v2 Y).val a b = if a.1 = r + r' + i ∧ b.1 = c + c' + j then x else C a b := by
    rw [hv2]
    show (if (r + r' ≤ a.1 ∧ a.1 < r + r' + m') ∧ c + c' ≤ b.1 ∧ b.1 < c + c' + n' then _ else _) = _
    have hi := i.2
    have hj := j.2
    by_cases hh : (r + r' ≤ a.1 ∧ a.1 < r + r' + m') ∧ c + c' ≤ b.1 ∧ b.1 < c + c' + n'
    · rw [if_pos hh, ofFin_of _ (show a.1 - (r + r') < m' by omega) (show b.1 - (c + c') < n' by omega)]
      show (if (⟨a.1 - (r + r'), _⟩ : Fin m') = i ∧ (⟨b.1 - (c + c'), _⟩ : Fin n') = j then x else _) = _
      by_cases hx : a.1 = r + r' + i ∧ b.1 = c + c' + j
      · rw [if_pos hx, if_pos ⟨Fin.ext (by simp only []; omega), Fin.ext (by simp only []; omega)⟩]
      · rw [if_neg hx, if_neg (fun e => hx (by
          have e1 := congrArg Fin.val e.1
          have e2 := congrArg Fin.val e.2
          simp only [] at e1 e2
          omega))]
        show ofFin C (r + r' + (a.1 - (r + r'))) (c + c' + (b.1 - (c + c'))) = _
        rw [Nat.add_sub_cancel' hh.1.1, Nat.add_sub_cancel' hh.2.1]
        exact ofFin_of C a.2 b.2
    · rw [if_neg hh, if_neg (fun e => hh (by omega))]
  have run : VRuns (badScalar lib) (alignedAt lib) s
      [.window 1 0 r c (r + m) (c + n), .window 2 1 r' c' (r' + m') (c' + n'), .call (.writeElem 2 i j x), .call (.readElem 0 a b)]
      [.unit, .unit, .unit, .elem (if a.1 = r + r' + i ∧ b.1 = c + c' + j then x else C a b)] s3 := by
    refine .cons (.window (v := ⟨0, 0, 0, M, N⟩) ((hl 1).trans (hb 1 le_rfl)) ((hl 0).trans h0) ?_ (by omega) h1 (by omega) h2 hal)
      (.cons (.window (s := s1) (v := v1) hl12 hl11 ?_ (by omega) ?_ (by omega) ?_ hal')
      (.cons (VAllowed.write (s := s2) (d := 2) (t := s2.look.set 2 (some Y)) rfl ⟨by simp [Op.sources], fun d e => by cases e⟩
        (.writeElem i j x hl22')) (.cons ?_ (.nil _))))
    · unfold VState.place; rw [hw 0]; simp only [h0, Option.map_some]
    · rfl
    · show _ ≤ v1.m
      rw [hv1]; exact h3
    · show _ ≤ v1.n
      rw [hv1]; exact h4
    · rw [set_self, ← hval]
      exact .read rfl (.readElem a b hl30)
  obtain ⟨p', e, -⟩ := C59_deterministic hlib h run (by intro d; simp)
  exact ⟨p', e⟩

-- a 4 x 200 sliced matrix, a window from column 64, a window from column 64 of that window
example : ∃ ff, ∃ _ : IsField ff, LibOk (stdLib ff) ∧ alignedAt (stdLib ff) true 64 ∧ 1 + 3 ≤ 4 ∧ 64 + 136 ≤ 200 ∧ 1 + 2 ≤ 3 ∧ 64 + 72 ≤ 136 ∧
    ∃ (C : Matrix (Fin 4) (Fin 200) (Elem ff)) (p : VPool) (s : VState (Elem ff)), VStores (stdLib ff) p s ∧
    s.bufs 0 = some ⟨true, 4, 200, C⟩ ∧ (∀ k, 1 ≤ k → s.bufs k = none) ∧ ∀ i, s.wins i = none := by
  obtain ⟨ff, h, hd⟩ := exists_aes
  refine ⟨ff, h, stdLib_ok ff, rfl, le_rfl, le_rfl, le_rfl, le_rfl, fun _ _ => 1,
    ⟨fun k => if k = 0 then some (.sliced (Mat.spack (ff := ff) ⟨4, 200, 0, fun _ _ => 1⟩)) else none, fun _ => none⟩,
    ⟨fun k => if k = 0 then some ⟨true, 4, 200, fun _ _ => 1⟩ else none, fun _ => none⟩, ⟨fun k => ?_, rfl, fun k v hv => by cases hv⟩, rfl,
    fun k hk => if_neg (by omega), fun _ => rfl⟩
  by_cases h0 : k = 0
  · subst h0
    exact (⟨rfl, rfl, rfl, _, spack_rep (ff := ff) _, fun _ _ => rfl⟩ :
      HoldsS (stdLib ff) (Mat.spack (ff := ff) ⟨4, 200, 0, fun _ _ => 1⟩) (fun (_ : Fin 4) (_ : Fin 200) => (1 : Elem ff)))
  · simp only [h0, if_false]

-- packed matrices over GF(2^8): windows start at multiples of 8 columns
example : ∃ ff, ∃ _ : IsField ff, alignedAt (stdLib ff) false 24 ∧ ¬ alignedAt (stdLib ff) false 12 := by
  obtain ⟨ff, h, hd⟩ := exists_aes
  refine ⟨ff, h, ?_, ?_⟩
  · show degreeToW ff.degree * 24 % 64 = 0
    rw [hd]; decide
  · show ¬ degreeToW ff.degree * 12 % 64 = 0
    rw [hd]; decide

end M4rie.Props
