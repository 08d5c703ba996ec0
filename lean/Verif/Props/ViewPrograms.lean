import Verif.Model.ViewPrograms
import Verif.Props.View
import Verif.Props.CheckedProg

/-!
# Property C67: programs with windows, permutations, decompositions and named algorithms
-/

namespace M4rie.Props
open M4rie M4rie.Spec M4rie.Chk

variable {pl : PLib}

/-- the matrices, windows and permutations of the program store those of the abstract state -/
def WStores (pl : PLib) (c : WPool) (s : WState (Elem pl.ff)) : Prop :=
  VStores pl.toLib c.mats s.mats ∧ ∀ k, match c.perms k, s.perm k with
    | none, none => True
    | some P, some x => HoldsPerm P x
    | _, _ => False

/-- a call creates, releases or changes one matrix, and keeps the dimensions of a matrix it changes -/
theorem pallowed_dest {K : Type} [Field K] [DecidableEq K] {bad : Nat → Nat → Prop} {w : Nat} {s t : PState K} {op : POp K} {out : Out K}
    (h : PAllowed bad w s op out t) :
    (op.dest = none → t.mat = s.mat) ∧ ∀ d, op.dest = some d → (∀ k, k ≠ d → t.mat k = s.mat k) ∧
      ((∀ X Y, s.mat d = some X → t.mat d = some Y → Y.sliced = X.sliced ∧ Y.m = X.m ∧ Y.n = X.n)) ∧
      (t.mat d = none → op = .base (.free d)) := by
  have aux : ∀ {d : Nat} {X0 Y0 : AMat K} {m : AState K} {op : POp K}, s.mat d = some X0 → m = s.mat.set d (some Y0) →
      Y0.sliced = X0.sliced → Y0.m = X0.m → Y0.n = X0.n → ∀ d', some d = some d' → (∀ k, k ≠ d' → m k = s.mat k) ∧
      ((∀ X Y, s.mat d' = some X → m d' = some Y → Y.sliced = X.sliced ∧ Y.m = X.m ∧ Y.n = X.n)) ∧ (m d' = none → op = .base (.free d')) := by
    intro d X0 Y0 m op h1 h2 e1 e2 e3 d' hd
    cases hd
    subst h2
    refine ⟨fun k hk => if_neg hk, fun X Y hX hY => ?_, fun hn => ?_⟩
    · rw [AState.set, if_pos rfl] at hY
      rw [h1] at hX
      cases hX; cases hY
      exact ⟨e1, e2, e3⟩
    · rw [AState.set, if_pos rfl] at hn; cases hn
  cases h with
  | base h =>
    obtain ⟨h1, h2⟩ := allowed_dest h
    exact ⟨h1, fun d hd => ⟨(h2 d hd).1, (h2 d hd).2.1, fun e => congrArg _ ((h2 d hd).2.2 e)⟩⟩
  | @named alg op out m X hX hoff h =>
    obtain ⟨h1, h2⟩ := allowed_dest h
    refine ⟨h1, fun d hd => ⟨(h2 d hd).1, (h2 d hd).2.1, fun e => ?_⟩⟩
    have := (h2 d hd).2.2 e
    subst this
    cases hXs : X.sliced <;> rw [hXs] at hoff <;> cases alg <;> exact hoff.elim
  | permInit p n hp => exact ⟨fun _ => rfl, fun d hd => nomatch hd⟩
  | permFree p hp => exact ⟨fun _ => rfl, fun d hd => nomatch hd⟩
  | applyLeft hp hd => exact ⟨nofun, aux hd rfl rfl rfl rfl⟩
  | applyLeftTrans hp hd => exact ⟨nofun, aux hd rfl rfl rfl rfl⟩
  | applyRight hp hd => exact ⟨nofun, aux hd rfl rfl rfl rfl⟩
  | applyRightTrans hp hd => exact ⟨nofun, aux hd rfl rfl rfl rfl⟩
  | decompose hpq hp hq hd _ _ _ => exact ⟨nofun, aux hd rfl rfl rfl rfl⟩
  | decomposeBy halg hpq hp hq hd _ _ _ => exact ⟨nofun, aux hd rfl rfl rfl rfl⟩
  | pluq hpq hp hq hd _ _ _ => exact ⟨nofun, aux hd rfl rfl rfl rfl⟩
  | rowAdd i j hd => exact ⟨nofun, aux hd rfl rfl rfl rfl⟩
  | copyRow i j hd ha => exact ⟨nofun, aux hd rfl rfl rfl rfl⟩
  | firstZeroRow ha _ _ _ => exact ⟨fun _ => rfl, fun d hd => nomatch hd⟩
  | addmulScalar x hd ha hda => exact ⟨nofun, aux hd rfl rfl rfl rfl⟩

variable [IsField pl.ff]

theorem WStores.look {c : WPool} {s : WState (Elem pl.ff)} (h : WStores pl c s) : PStores pl c.look s.look := ⟨h.1.look, h.2⟩

/-- **C67** one call: if it may be made, the library answers as the abstract operation, and matrices, windows and permutations correspond again. -/
theorem C67_step (hlib : PLibOk pl) {c : WPool} {s : WState (Elem pl.ff)} (h : WStores pl c s) {op : WOp (Elem pl.ff)}
    (hop : ∃ out s', WAllowed (badScalar pl.toLib) (bitsOf pl) (alignedAt pl.toLib) s op out s') :
    ∃ c' out s', M4rie.wcall pl c op = some (c', out) ∧ WAllowed (badScalar pl.toLib) (bitsOf pl) (alignedAt pl.toLib) s op out s' ∧ WStores pl c' s' := by
  obtain ⟨out, s', hop⟩ := hop
  cases hop with
  | @read op out t hd ha =>
    obtain ⟨p, out', t, e, ha', hp, hf⟩ := C65_step hlib h.look ⟨_, _, ha⟩
    refine ⟨⟨c.mats, p.perms⟩, out', ⟨s.mats, t.perm⟩, ?_, .read hd ha', h.1, hp.2⟩
    simp only [M4rie.wcall, e, Option.map_some, WPool.back, hd]
  | @write op out d t hd hc ha =>
    obtain ⟨p, out', t, e, ha', hp, hf⟩ := C65_step hlib h.look ⟨_, _, ha⟩
    obtain ⟨-, hdim, hfree⟩ := (pallowed_dest ha').2 d hd
    refine ⟨⟨c.mats.put d (p.mats d), p.perms⟩, out', ⟨s.mats.put d (t.mat d), t.perm⟩, ?_, .write hd hc ha',
      h.1.put_of hdim (fun e => hc.2 d (hfree e)) hp.1 hf, hp.2⟩
    simp only [M4rie.wcall, e, Option.map_some, WPool.back, hd]
  | @window d a lr lc hr hc m hv =>
    obtain ⟨c', out, s', e, ha, hs⟩ := C59_step hlib.toLibOk h.1 ⟨_, _, hv⟩
    cases ha with
    | window b1 b2 b3 b4 b5 b6 b7 b8 =>
      refine ⟨{ c with mats := c' }, _, _, ?_, .window (.window b1 b2 b3 b4 b5 b6 b7 b8), hs, h.2⟩
      show (vcall pl.toLib c.mats _).map _ = _
      rw [e]; rfl
  | @freeWindow d m hv =>
    obtain ⟨c', out, s', e, ha, hs⟩ := C59_step hlib.toLibOk h.1 ⟨_, _, hv⟩
    cases ha with
    | freeWindow b1 =>
      refine ⟨{ c with mats := c' }, _, _, ?_, .freeWindow (.freeWindow b1), hs, h.2⟩
      show (vcall pl.toLib c.mats _).map _ = _
      rw [e]; rfl

/-- **C67** every sequence of calls on matrices, windows and permutations that may be made is answered as the abstract operations are, and never dies. -/
theorem C67_history (hlib : PLibOk pl) : ∀ (ops : List (WOp (Elem pl.ff))) {c : WPool} {s : WState (Elem pl.ff)}, WStores pl c s →
    WSafe (badScalar pl.toLib) (bitsOf pl) (alignedAt pl.toLib) s ops →
    ∃ c' outs s', M4rie.wrunProgram pl c ops = some (c', outs) ∧ WRuns (badScalar pl.toLib) (bitsOf pl) (alignedAt pl.toLib) s ops outs s' ∧
      WStores pl c' s' := by
  intro ops
  induction ops with
  | nil => intro c s h _; exact ⟨c, [], s, rfl, .nil s, h⟩
  | cons op ops ih =>
    intro c s h hs
    obtain ⟨c1, out, s1, e1, h1, g1⟩ := C67_step hlib h hs.1
    obtain ⟨c2, outs, s2, e2, h2, g2⟩ := ih g1 (hs.2 _ _ h1)
    exact ⟨c2, out :: outs, s2, by simp only [M4rie.wrunProgram, e1, Option.bind_some, e2, Option.map_some], .cons h1 h2, g2⟩

/-! ### with every access checked -/

/-- the matrix a call leaves behind is not too large if the variables are not -/
theorem sized_of_put {w : Nat} {s : VState (Elem pl.ff)} {t : AState (Elem pl.ff)} {d : Nat} (hw : WinOk pl.toLib s) (hs : Sized w s.look)
    (hsame : ∀ k, k ≠ d → t k = s.look k) (hdim : ∀ X Y, s.look d = some X → t d = some Y → Y.sliced = X.sliced ∧ Y.m = X.m ∧ Y.n = X.n)
    (hs' : Sized w (s.put d (t d)).look) : Sized w t := by
  intro k Y hY
  by_cases hk : k = d
  · subst hk
    cases hX : s.look k with
    | some X =>
      obtain ⟨-, e2, e3⟩ := hdim X Y hX hY
      rw [e2, e3]
      exact hs k X hX
    | none =>
      have hwk : s.wins k = none := by
        cases e : s.wins k with
        | none => rfl
        | some v =>
          obtain ⟨-, -, Z, hZ, -⟩ := hw k v e
          simp only [VState.look, e, hZ, Option.map_some] at hX
          cases hX
      refine hs' k Y ?_
      have e2 : s.put k (t k) = { s with bufs := s.bufs.set k (t k) } := by
        unfold VState.put
        simp only [hwk]
      rw [e2]
      simp only [VState.look, hwk]
      exact (if_pos rfl).trans hY
  · exact hs k Y (by rw [← hsame k hk]; exact hY)

/-- **C67** a permitted call does the same with every access, shift, `int`, contract of M4RI and assertion checked. -/
theorem C67_agree (dbg : Bool) (hlib : PLibOk pl) (hmed : ∀ m n, pl.medium m n = decide (m * n * bitsOf pl ≤ 2 * (pl.l2 * 4))) {c : WPool}
    {s : WState (Elem pl.ff)} (h : WStores pl c s) (hasc : Ascending s.look) (hs : Sized (bitsOf pl) s.mats.look) {op : WOp (Elem pl.ff)}
    (hfit : WOpFits (bitsOf pl) s op) {out : Out (Elem pl.ff)} {s' : WState (Elem pl.ff)}
    (hop : WAllowed (badScalar pl.toLib) (bitsOf pl) (alignedAt pl.toLib) s op out s') (hs' : Sized (bitsOf pl) s'.mats.look) :
    Chk.wcall dbg pl c op = M4rie.wcall pl c op := by
  cases hop with
  | @read op out t hd ha =>
    refine congrArg (Option.map _) (C66_agree dbg hlib hmed h.look hasc hs hfit ha ?_)
    rw [(pallowed_dest ha).1 hd]; exact hs
  | @write op out d t hd hc ha =>
    obtain ⟨hsame, hdim, -⟩ := (pallowed_dest ha).2 d hd
    exact congrArg (Option.map _) (C66_agree dbg hlib hmed h.look hasc hs hfit ha (sized_of_put h.1.2.2 hs hsame hdim hs'))
  | @window d a lr lc hr hc m hv =>
    cases hv with
    | @window _ _ _ _ _ _ X v b1 b2 b3 b4 b5 b6 b7 b8 =>
      obtain ⟨t, M, N, X⟩ := X
      cases t with
      | false =>
        obtain ⟨A, e, H⟩ := h.look.1.packed b2
        have e' : c.mats.look a = some (.packed A) := e
        simp only [Chk.wcall, e']
        rw [(H.dm.window (hs _ _ b2).2.2 b8 b4 b5 b6 b7 rfl rfl).1, Option.bind_some]
      | true =>
        obtain ⟨A, e, H⟩ := h.look.1.sliced b2
        have e' : c.mats.look a = some (.sliced A) := e
        simp only [Chk.wcall, e']
        rw [(H.sd.window b8 b4 b5 b6 b7 rfl rfl).1, Option.bind_some]
  | freeWindow hv => rfl

theorem wsafeFit_sized {bad : Nat → Nat → Prop} {w : Nat} {al : Bool → Nat → Prop} : ∀ {ops : List (WOp (Elem pl.ff))} {t : WState (Elem pl.ff)},
    WSafeFit bad w al t ops → Sized w t.mats.look
  | [], _, h => h
  | _ :: _, _, h => h.1

theorem wascending_step {bad : Nat → Nat → Prop} {w : Nat} {al : Bool → Nat → Prop} {s s' : WState (Elem pl.ff)} (hasc : Ascending s.look)
    {op : WOp (Elem pl.ff)} {out : Out (Elem pl.ff)} (hop : WAllowed bad w al s op out s') : Ascending s'.look := by
  cases hop with
  | read hd ha => exact fun p x hp => ascending_step hasc ha p x hp
  | write hd hc ha => exact fun p x hp => ascending_step hasc ha p x hp
  | window => exact hasc
  | freeWindow => exact hasc

/-- **C67** no permitted program on matrices, windows and permutations, on matrices that are not too large, triggers undefined behaviour or a failed
assertion: with every access, shift, `int`, contract of M4RI and assertion checked it does exactly what it does without. -/
theorem C67_checked (dbg : Bool) (hlib : PLibOk pl) (hmed : ∀ m n, pl.medium m n = decide (m * n * bitsOf pl ≤ 2 * (pl.l2 * 4))) :
    ∀ (ops : List (WOp (Elem pl.ff))) {c : WPool} {s : WState (Elem pl.ff)}, WStores pl c s → Ascending s.look →
      WSafeFit (badScalar pl.toLib) (bitsOf pl) (alignedAt pl.toLib) s ops →
      ∃ c' outs s', Chk.wrunProgram dbg pl c ops = some (c', outs) ∧ M4rie.wrunProgram pl c ops = some (c', outs) ∧
        WRuns (badScalar pl.toLib) (bitsOf pl) (alignedAt pl.toLib) s ops outs s' ∧ WStores pl c' s' := by
  intro ops
  induction ops with
  | nil => intro c s h _ _; exact ⟨c, [], s, rfl, rfl, .nil s, h⟩
  | cons op ops ih =>
    intro c s h hasc hs
    obtain ⟨c1, out, s1, e1, h1, g1⟩ := C67_step hlib h hs.2.2.1
    have hs1 := hs.2.2.2 out s1 h1
    have e1' := (C67_agree dbg hlib hmed h hasc hs.1 hs.2.1 h1 (wsafeFit_sized hs1)).trans e1
    obtain ⟨c2, outs, s2, e2, e2', h2, g2⟩ := ih g1 (wascending_step hasc h1) hs1
    exact ⟨c2, out :: outs, s2, by simp only [Chk.wrunProgram, e1', Option.bind_some, e2, Option.map_some],
      by simp only [M4rie.wrunProgram, e1, Option.bind_some, e2', Option.map_some], .cons h1 h2, g2⟩

/-- an object storing `X` -/
noncomputable def storeObj (lib : Lib) [IsField lib.ff] (X : AMat (Elem lib.ff)) : Obj := match X with
  | ⟨false, m, n, X⟩ => .packed (Mat.pack (ff := lib.ff) ⟨m, n, lib.fid, ofFin X⟩)
  | ⟨true, m, n, X⟩ => .sliced (Mat.spack (ff := lib.ff) ⟨m, n, lib.fid, ofFin X⟩)

theorem storeObj_holds (lib : Lib) [IsField lib.ff] (X : AMat (Elem lib.ff)) : Holds lib (storeObj lib X) X := by
  obtain ⟨t, m, n, X⟩ := X
  cases t with
  | false =>
    exact (⟨rfl, rfl, rfl, _, pack_rep (ff := lib.ff) _, fun i j => dif_pos (And.intro i.2 j.2)⟩ : HoldsP lib (Mat.pack (ff := lib.ff) ⟨m, n, lib.fid, ofFin X⟩) X)
  | true =>
    exact (⟨rfl, rfl, rfl, _, spack_rep (ff := lib.ff) _, fun i j => dif_pos (And.intro i.2 j.2)⟩ : HoldsS lib (Mat.spack (ff := lib.ff) ⟨m, n, lib.fid, ofFin X⟩) X)

/-- every abstract state can be stored -/
theorem exists_stores (lib : Lib) [IsField lib.ff] (s : AState (Elem lib.ff)) : ∃ c, Stores lib c s := by
  refine ⟨fun k => (s k).map (storeObj lib), fun k => ?_⟩
  cases e : s k with
  | none => simp only [e, Option.map_none]
  | some Y => simp only [e, Option.map_some]; exact storeObj_holds lib Y

theorem exists_perms (f : Nat → Option APerm) : ∃ g : Nat → Option Mzp, ∀ k, match g k, f k with
    | none, none => True
    | some P, some x => HoldsPerm P x
    | _, _ => False := by
  refine ⟨fun k => (f k).map fun x => ⟨x.n, x.at⟩, fun k => ?_⟩
  cases e : f k with
  | none => simp only [e, Option.map_none]
  | some x => simp only [e, Option.map_some]; exact ⟨rfl, fun i => dif_pos i.2⟩

/-- every abstract state whose windows lie inside their matrices at word boundaries can be stored -/
theorem exists_wstores (s : WState (Elem pl.ff)) (h : WinOk pl.toLib s.mats) : ∃ c, WStores pl c s := by
  obtain ⟨c, hc⟩ := exists_stores pl.toLib s.mats.bufs
  obtain ⟨g, hg⟩ := exists_perms s.perm
  exact ⟨⟨⟨c, s.mats.wins⟩, g⟩, ⟨hc, rfl, h⟩, hg⟩

/-- **C67** a permitted call leaves every entry alone that is not shown by its destination: in every matrix, also in the one the destination is a window of. -/
theorem C67_untouched (hlib : PLibOk pl) {c : WPool} {s : WState (Elem pl.ff)} (h : WStores pl c s) {op : POp (Elem pl.ff)}
    (hop : ∃ out s', WAllowed (badScalar pl.toLib) (bitsOf pl) (alignedAt pl.toLib) s (.call op) out s') {k : Nat} {X : AMat (Elem pl.ff)}
    (hk : s.mats.bufs k = some X) {i j : Nat} (hi : i < X.m) (hj : j < X.n)
    (hout : ∀ d, op.dest = some d → ∀ v, s.mats.place d = some v → ¬ (v.root = k ∧ (v.r ≤ i ∧ i < v.r + v.m) ∧ v.c ≤ j ∧ j < v.c + v.n)) :
    ∃ c' out s' X', M4rie.wcall pl c (.call op) = some (c', out) ∧ WStores pl c' s' ∧ s'.mats.bufs k = some X' ∧ X'.sliced = X.sliced ∧ X'.m = X.m ∧
      X'.n = X.n ∧ ofFin X'.val i j = ofFin X.val i j := by
  obtain ⟨c', out, s', e, ha, hs⟩ := C67_step hlib h hop
  cases ha with
  | read hd ha => exact ⟨c', out, _, X, e, hs, hk, rfl, rfl, rfl, rfl⟩
  | @write _ _ d t hd hc ha =>
    have hout := hout d hd
    refine ⟨c', out, ⟨s.mats.put d (t.mat d), t.perm⟩, ?_⟩
    unfold VState.place at hout
    show ∃ X', _ ∧ _ ∧ (s.mats.put d (t.mat d)).bufs k = some X' ∧ _
    cases hw : s.mats.wins d with
    | none =>
      have hkd : k ≠ d := by
        rintro rfl
        have := hout ⟨k, 0, 0, X.m, X.n⟩ (by simp only [hw, hk, Option.map_some])
        exact this ⟨rfl, ⟨Nat.zero_le _, by simpa using hi⟩, Nat.zero_le _, by simpa using hj⟩
      refine ⟨X, e, hs, ?_, rfl, rfl, rfl, rfl⟩
      simp only [VState.put, hw]
      exact (if_neg hkd).trans hk
    | some v =>
      have hout := hout v (by simp only [hw])
      obtain ⟨-, -, hfree⟩ := (pallowed_dest ha).2 d hd
      cases hY : t.mat d with
      | none => rw [(hc.2 d (hfree hY)).1] at hw; cases hw
      | some Y =>
        rw [hY] at hs
        by_cases hkr : k = v.root
        · refine ⟨X.paste v Y, e, hs, ?_, rfl, rfl, rfl, ?_⟩
          · simp only [VState.put, hw, ← hkr, hk, Option.map_some]
            exact if_pos rfl
          · have h1 := ofFin_of (X.paste v Y).val (i := i) (j := j) hi hj
            have h2 := ofFin_of X.val hi hj
            rw [h1, h2]
            show (if _ then _ else _) = _
            exact if_neg fun hh => hout ⟨hkr.symm, hh⟩
        · refine ⟨X, e, hs, ?_, rfl, rfl, rfl, rfl⟩
          simp only [VState.put, hw]
          exact (if_neg hkr).trans hk

/-- **C67** decomposing a window: the returned number is the rank of the rectangle it shows, the rectangle becomes a PLE decomposition of what it was,
and the rest of the matrix stays as it is. -/
theorem C67_decompose_window (hlib : PLibOk pl) {c : WPool} {s : WState (Elem pl.ff)} (h : WStores pl c s) {d p q : Nat} {v : View} {x y : APerm}
    {X : AMat (Elem pl.ff)} (hd : s.mats.wins d = some v) (hX : s.mats.bufs v.root = some X) (hpq : p ≠ q) (hp : s.perm p = some x) (hq : s.perm q = some y)
    (hm : x.n = v.m) (hn : y.n = v.n) :
    ∃ (c' : WPool) (x' y' : APerm) (F : Matrix (Fin v.m) (Fin v.n) (Elem pl.ff)),
      M4rie.wcall pl c (.call (.decompose d p q)) = some (c', .num (X.cut v).val.rank) ∧ x'.n = v.m ∧ y'.n = v.n ∧
      IsPLE v.m v.n (X.cut v).val.rank (fun i j => if i < v.m ∧ j < v.n then ofFin X.val (v.r + i) (v.c + j) else 0) (ofFin F) x'.at y'.at ∧
      WStores pl c' ⟨{ s.mats with bufs := s.mats.bufs.set v.root (some (X.paste v ⟨X.sliced, v.m, v.n, F⟩)) },
        fun k => if k = q then some y' else if k = p then some x' else s.perm k⟩ := by
  have hl : s.look.mat d = some (X.cut v) := by
    show s.mats.look d = _
    simp only [VState.look, hd, hX, Option.map_some]
  obtain ⟨M, xa⟩ := x
  obtain ⟨N, ya⟩ := y
  dsimp only at hm hn
  subst hm hn
  have hl : s.look.mat d = some ⟨X.sliced, v.m, v.n, (X.cut v).val⟩ := hl
  have hex := exists_ple hlib h.look (d := d) (t := X.sliced) (x := ⟨v.m, xa⟩) (y := ⟨v.n, ya⟩) (X := (X.cut v).val) hpq hp hq hl
  have hclear : s.Clear (.decompose d p q : POp (Elem pl.ff)) :=
    ⟨fun _ _ a ha => absurd ha List.not_mem_nil, fun _ e => by cases e⟩
  obtain ⟨o0, t0, hex⟩ := hex
  obtain ⟨c', out, s', e, ha, hs⟩ := C67_step hlib h ⟨_, _, .write (rfl : (POp.decompose d p q : POp (Elem pl.ff)).dest = some d) hclear hex⟩
  cases ha with
  | read hd' _ => cases hd'
  | @write _ _ d' t hd' _ ha =>
    cases hd'
    obtain ⟨x', y', F, hx, hy, hP, rfl, rfl⟩ := decompose_inv (x := ⟨v.m, xa⟩) (y := ⟨v.n, ya⟩) (X := (X.cut v).val) hp hq hl ha
    refine ⟨c', x', y', F, e, hx, hy, ?_, ?_⟩
    · refine cast (congrArg (fun f => IsPLE _ _ _ f _ _ _) ?_) hP
      funext i j
      unfold ofFin
      by_cases hij : i < v.m ∧ j < v.n
      · rw [dif_pos hij, if_pos hij]; rfl
      · rw [dif_neg hij, if_neg hij]
    · have e2 : s.mats.put d (some ⟨X.sliced, v.m, v.n, F⟩) = { s.mats with bufs := s.mats.bufs.set v.root (some (X.paste v ⟨X.sliced, v.m, v.n, F⟩)) } := by
        unfold VState.put
        simp only [hd, hX, Option.map_some]
      rw [← e2]
      have e3 : (((s.look.setMat d (some ⟨X.sliced, v.m, v.n, F⟩)).setPerm p (some x')).setPerm q (some y')).mat d = some ⟨X.sliced, v.m, v.n, F⟩ := if_pos rfl
      refine cast (congrArg (fun Z => WStores pl c' ⟨s.mats.put d Z, _⟩) e3) hs

theorem sized_look {K : Type} [Zero K] {w : Nat} {s : VState K} (hb : Sized w s.bufs)
    (hw : ∀ k v, s.wins k = some v → v.m < 2 ^ 31 ∧ 0 < v.n ∧ w * v.n < 2 ^ 31) : Sized w s.look := by
  intro k X hX
  unfold VState.look at hX
  cases e : s.wins k with
  | none => rw [e] at hX; exact hb k X hX
  | some v =>
    rw [e] at hX
    cases e' : s.bufs v.root with
    | none => simp only [e', Option.map_none] at hX; cases hX
    | some Y => simp only [e', Option.map_some] at hX; cases hX; exact hw k v e

/-- one packed 4 x 16 matrix, one 2 x 2 window with corner (1, 8), two permutations of length 2 -/
def Sample {K : Type} (s : WState K) : Prop :=
  (∃ X, s.mats.bufs = fun k => if k = 0 then some ⟨false, 4, 16, X⟩ else none) ∧ (s.mats.wins = fun k => if k = 1 then some ⟨0, 1, 8, 2, 2⟩ else none) ∧
  ∃ a b, s.perm 0 = some ⟨2, a⟩ ∧ s.perm 1 = some ⟨2, b⟩

theorem Sample.sized {K : Type} [Zero K] {s : WState K} (h : Sample s) : Sized 8 s.mats.look := by
  obtain ⟨⟨X, h1⟩, h2, -⟩ := h
  refine sized_look ?_ ?_
  · intro k Y e
    rw [h1] at e
    by_cases hk : k = 0
    · simp only [hk, if_true] at e; cases e; exact (by decide : 4 < 2 ^ 31 ∧ 0 < 16 ∧ 8 * 16 < 2 ^ 31)
    · simp only [hk, if_false] at e; cases e
  · intro k v e
    rw [h2] at e
    by_cases hk : k = 1
    · simp only [hk, if_true] at e; cases e; exact (by decide : 2 < 2 ^ 31 ∧ 0 < 2 ∧ 8 * 2 < 2 ^ 31)
    · simp only [hk, if_false] at e; cases e

theorem Sample.look {K : Type} [Zero K] {s : WState K} (h : Sample s) : ∃ Y, s.look.mat 1 = some ⟨false, 2, 2, Y⟩ := by
  obtain ⟨⟨X, h1⟩, h2, -⟩ := h
  refine ⟨((⟨false, 4, 16, X⟩ : AMat K).cut ⟨0, 1, 8, 2, 2⟩).val, ?_⟩
  show s.mats.look 1 = _
  simp only [VState.look, h1, h2, if_true, Option.map_some]
  rfl

theorem Sample.put {K : Type} [Zero K] {s : WState K} (h : Sample s) (Y : AMat K) {f : Nat → Option APerm} (hf : ∃ a b, f 0 = some ⟨2, a⟩ ∧ f 1 = some ⟨2, b⟩) :
    Sample ⟨s.mats.put 1 (some Y), f⟩ := by
  obtain ⟨⟨X, h1⟩, h2, -⟩ := h
  refine ⟨⟨((⟨false, 4, 16, X⟩ : AMat K).paste ⟨0, 1, 8, 2, 2⟩ Y).val, ?_⟩, ?_, hf⟩
  · show (s.mats.put 1 (some Y)).bufs = _
    simp only [VState.put, h1, h2, if_true, Option.map_some]
    funext k
    unfold AState.set
    by_cases hk : k = 0
    · rw [if_pos hk, if_pos hk]; rfl
    · simp only [hk, if_false]
  · show (s.mats.put 1 (some Y)).wins = _
    simp only [VState.put, h2, if_true]

-- over the AES field, starting with nothing: two permutations, a packed 4 x 16 matrix, a window at row 1, column 8 of it, an entry written through the window,
-- the window decomposed
example : ∃ ff, ∃ _ : IsField ff, ff.degree = 8 ∧ PLibOk (sizedPLib ff) ∧
    WStores (sizedPLib ff) ⟨⟨fun _ => none, fun _ => none⟩, fun _ => none⟩ ⟨⟨fun _ => none, fun _ => none⟩, fun _ => none⟩ ∧
    WSafeFit (badScalar (sizedPLib ff).toLib) (bitsOf (sizedPLib ff)) (alignedAt (sizedPLib ff).toLib) ⟨⟨fun _ => none, fun _ => none⟩, fun _ => none⟩
      [.call (.permInit 0 2), .call (.permInit 1 2), .call (.base (.init false 0 4 16)), .window 1 0 1 8 3 10,
        .call (.base (.writeElem 1 1 1 (1 : Elem ff))), .call (.decompose 1 0 1)] := by
  obtain ⟨ff, h, hd⟩ := exists_aes
  have h0 : WStores (sizedPLib ff) ⟨⟨fun _ => none, fun _ => none⟩, fun _ => none⟩ ⟨⟨fun _ => none, fun _ => none⟩, fun _ => none⟩ :=
    ⟨⟨fun _ => trivial, rfl, fun _ _ e => nomatch e⟩, fun _ => trivial⟩
  have hb : bitsOf (sizedPLib ff) = 8 := by unfold bitsOf; show degreeToW ff.degree = 8; rw [hd]; rfl
  have hal : alignedAt (sizedPLib ff).toLib false 8 := by show degreeToW ff.degree * 8 % 64 = 0; rw [hd]; rfl
  have halz : alignedAt (sizedPLib ff).toLib false 0 := rfl
  have z : ∀ f : Nat → Option APerm, Sized (K := Elem ff) (bitsOf (sizedPLib ff)) (VState.look ⟨fun _ => none, fun _ => none⟩) := fun _ _ _ e => nomatch e
  refine ⟨ff, h, hd, sizedPLib_ok ff, h0, ?_⟩
  refine ⟨z (fun _ => none), trivial, ⟨_, _, .read rfl (.permInit 0 2 rfl)⟩, fun out s' e => ?_⟩
  cases e with
  | write hd' _ _ => cases hd'
  | read _ e =>
  cases e with
  | permInit =>
  refine ⟨z (fun _ => none), trivial, ⟨_, _, .read rfl (.permInit 1 2 rfl)⟩, fun out s' e => ?_⟩
  cases e with
  | write hd' _ _ => cases hd'
  | read _ e =>
  cases e with
  | permInit =>
  refine ⟨z (fun _ => none), trivial, ⟨_, _, .write (d := 0) rfl ⟨fun _ _ a ha => absurd ha List.not_mem_nil, fun _ e => by cases e⟩
    (.base (.init false 0 4 16 rfl))⟩, fun out s' e => ?_⟩
  cases e with
  | read hd' _ => cases hd'
  | write hd' _ e =>
  cases hd'
  cases e with
  | base e =>
  cases e with
  | init =>
  refine ⟨?_, trivial, ⟨_, _, .window (.window (X := ⟨false, 4, 16, 0⟩) (v := ⟨0, 0, 0, 4, 16⟩) rfl rfl rfl (by decide) (by decide : 3 ≤ 4) (by decide)
    (by decide : 10 ≤ 16) hal)⟩, fun out s' e => ?_⟩
  · rw [hb]
    refine sized_look ?_ fun _ _ e => nomatch e
    intro k Y e
    by_cases hk : k = 0
    · subst hk; cases e; exact (by decide : 4 < 2 ^ 31 ∧ 0 < 16 ∧ 8 * 16 < 2 ^ 31)
    · have : (if k = 0 then _ else _) = some Y := e
      rw [if_neg hk] at this; cases this
  have hS : Sample s' := by
    cases e with
    | window e =>
    cases e with
    | @window _ _ _ _ _ _ X v b1 b2 b3 _ _ _ _ _ =>
      cases b3
      exact ⟨⟨0, rfl⟩, rfl, id, id, rfl, rfl⟩
  clear e
  obtain ⟨Y, hY⟩ := hS.look
  have hcl : s'.Clear (POp.base (.writeElem 1 1 1 (1 : Elem ff))) := ⟨fun _ _ a ha => absurd ha List.not_mem_nil, fun _ e => by cases e⟩
  refine ⟨hb ▸ hS.sized, trivial, ⟨_, _, .write (d := 1) rfl hcl (.base (.writeElem (1 : Fin 2) (1 : Fin 2) (1 : Elem ff) hY))⟩, fun out s2 e => ?_⟩
  have hS2 : Sample s2 := by
    cases e with
    | read hd' _ => cases hd'
    | @write _ _ _ t hd' _ e =>
      cases hd'
      have hp : ∃ Z, t.mat 1 = some Z := by
        rcases hm : t.mat 1 with _ | Z
        · have := ((pallowed_dest e).2 1 rfl).2.2 hm; cases this
        · exact ⟨Z, rfl⟩
      obtain ⟨Z, hZ⟩ := hp
      rw [hZ]
      refine hS.put Z ?_
      cases e with
      | base e => exact hS.2.2
  clear e
  obtain ⟨Y2, hY2⟩ := hS2.look
  obtain ⟨a, b, ha, hb'⟩ := hS2.2.2
  have hW : WinOk (sizedPLib ff).toLib s2.mats := by
    obtain ⟨⟨X, k1⟩, k2, -⟩ := hS2
    intro k v e
    rw [k2] at e
    by_cases hk : k = 1
    · simp only [hk, if_true] at e
      cases e
      subst hk
      exact ⟨by rw [k1]; rfl, by rw [k2]; rfl, ⟨false, 4, 16, X⟩, by rw [k1]; rfl, (by decide : 1 + 2 ≤ 4), (by decide : 8 + 2 ≤ 16), hal⟩
    · simp only [hk, if_false] at e; cases e
  obtain ⟨c2, hc2⟩ := exists_wstores (pl := sizedPLib ff) s2 hW
  obtain ⟨o3, t3, h3⟩ := exists_ple (pl := sizedPLib ff) (x := ⟨2, a⟩) (y := ⟨2, b⟩) (sizedPLib_ok ff) hc2.look (by decide) ha hb' hY2
  have hcl2 : s2.Clear (POp.decompose 1 0 1 : POp (Elem ff)) := ⟨fun _ _ a ha => absurd ha List.not_mem_nil, fun _ e => by cases e⟩
  refine ⟨hb ▸ hS2.sized, trivial, ⟨_, _, .write (d := 1) rfl hcl2 h3⟩, fun out s4 e => ?_⟩
  cases e with
  | read hd' _ => cases hd'
  | write hd' _ e =>
    cases hd'
    obtain ⟨x', y', F, hx, hy, -, -, rfl⟩ := decompose_inv (pl := sizedPLib ff) (x := ⟨2, a⟩) (y := ⟨2, b⟩) ha hb' hY2 e
    obtain ⟨n1, x'⟩ := x'
    obtain ⟨n2, y'⟩ := y'
    dsimp only at hx hy
    subst hx hy
    have := hS2.put ⟨false, 2, 2, F⟩ (f := fun k => if k = 1 then some ⟨2, y'⟩ else if k = 0 then some ⟨2, x'⟩ else s2.perm k) ⟨x', y', rfl, rfl⟩
    exact hb ▸ this.sized

end M4rie.Props
