import Verif.Props.Schedule
import Verif.Props.ViewPrograms

/-!
# Property C69, with windows: threads working on disjoint rectangles
-/

namespace M4rie.Props
open M4rie M4rie.Spec

section spec
variable {K : Type} [Field K] [DecidableEq K] {bad : Nat → Nat → Prop} {w : Nat} {aligned : Bool → Nat → Prop}

/-! ### the specification of a call depends on the variables it uses only -/

omit [Field K] [DecidableEq K] in
theorem aset_self (s : AState K) (d : Nat) (X : Option (AMat K)) : s.set d X d = X := if_pos rfl

theorem allowed_local {s s' t : AState K} {op : Op K} {out : Out K} (h : Allowed bad s op out t) (hd : ∀ d ∈ op.dest, s' d = s d)
    (hs : ∀ a ∈ op.sources, s' a = s a) : ∃ t', Allowed bad s' op out t' ∧ ∀ d, op.dest = some d → t' d = t d := by
  have fin : ∀ {d : Nat} {X : Option (AMat K)} (d' : Nat), some d = some d' → s'.set d X d' = s.set d X d' := by
    intro d X d' e
    cases e
    rw [aset_self, aset_self]
  cases h with
  | init sl d m n h1 => exact ⟨_, .init sl d m n ((hd d rfl).trans h1), fin⟩
  | free d h1 => exact ⟨_, .free d ((hd d rfl).trans h1), fin⟩
  | readElem i j h1 => exact ⟨_, .readElem i j ((hs _ (by simp [Op.sources])).trans h1), nofun⟩
  | writeElem i j x h1 => exact ⟨_, .writeElem i j x ((hd _ rfl).trans h1), fin⟩
  | addElem i j x h1 => exact ⟨_, .addElem i j x ((hd _ rfl).trans h1), fin⟩
  | setUi x h1 => exact ⟨_, .setUi x ((hd _ rfl).trans h1), fin⟩
  | rowSwap i j h1 => exact ⟨_, .rowSwap i j ((hd _ rfl).trans h1), fin⟩
  | colSwap i j h1 => exact ⟨_, .colSwap i j ((hd _ rfl).trans h1), fin⟩
  | rescaleRow i c x h1 => exact ⟨_, .rescaleRow i c x ((hd _ rfl).trans h1), fin⟩
  | addMultipleOfRow i j x c h1 h2 h3 =>
    exact ⟨_, .addMultipleOfRow i j x c ((hd _ rfl).trans h1) ((hs _ (by simp [Op.sources])).trans h2) h3, fin⟩
  | copy h1 h2 => exact ⟨_, .copy ((hd _ rfl).trans h1) ((hs _ (by simp [Op.sources])).trans h2), fin⟩
  | convert h1 h2 => exact ⟨_, .convert ((hd _ rfl).trans h1) ((hs _ (by simp [Op.sources])).trans h2), fin⟩
  | add h1 h2 h3 => exact ⟨_, .add ((hd _ rfl).trans h1) ((hs _ (by simp [Op.sources])).trans h2) ((hs _ (by simp [Op.sources])).trans h3), fin⟩
  | mulScalarPacked x h1 h2 h3 h4 => exact ⟨_, .mulScalarPacked x ((hd _ rfl).trans h1) ((hs _ (by simp [Op.sources])).trans h2) h3 h4, fin⟩
  | mulScalarSliced x h1 h2 h3 => exact ⟨_, .mulScalarSliced x ((hd _ rfl).trans h1) ((hs _ (by simp [Op.sources])).trans h2) h3, fin⟩
  | mul h1 h2 h3 h4 h5 h6 =>
    exact ⟨_, .mul ((hd _ rfl).trans h1) ((hs _ (by simp [Op.sources])).trans h2) ((hs _ (by simp [Op.sources])).trans h3) h4 h5 h6, fin⟩
  | addmul h1 h2 h3 h4 h5 h6 =>
    exact ⟨_, .addmul ((hd _ rfl).trans h1) ((hs _ (by simp [Op.sources])).trans h2) ((hs _ (by simp [Op.sources])).trans h3) h4 h5 h6, fin⟩
  | concat h1 h2 h3 => exact ⟨_, .concat ((hd _ rfl).trans h1) ((hs _ (by simp [Op.sources])).trans h2) ((hs _ (by simp [Op.sources])).trans h3), fin⟩
  | stack h1 h2 h3 => exact ⟨_, .stack ((hd _ rfl).trans h1) ((hs _ (by simp [Op.sources])).trans h2) ((hs _ (by simp [Op.sources])).trans h3), fin⟩
  | submatrix hr hc h1 h2 => exact ⟨_, .submatrix hr hc ((hd _ rfl).trans h1) ((hs _ (by simp [Op.sources])).trans h2), fin⟩
  | echelonize full piv h1 h2 h3 h4 => exact ⟨_, .echelonize full piv ((hd _ rfl).trans h1) h2 h3 h4, fin⟩
  | invert h1 h2 h3 => exact ⟨_, .invert ((hd _ rfl).trans h1) ((hs _ (by simp [Op.sources])).trans h2) h3, fin⟩
  | trsmLower h1 h2 h3 h4 h5 => exact ⟨_, .trsmLower ((hd _ rfl).trans h1) ((hs _ (by simp [Op.sources])).trans h2) h3 h4 h5, fin⟩
  | trsmUpper h1 h2 h3 h4 h5 => exact ⟨_, .trsmUpper ((hd _ rfl).trans h1) ((hs _ (by simp [Op.sources])).trans h2) h3 h4 h5, fin⟩
  | isZero h1 => exact ⟨_, .isZero ((hs _ (by simp [Op.sources])).trans h1), nofun⟩
  | equal h1 h2 => exact ⟨_, .equal ((hs _ (by simp [Op.sources])).trans h1) ((hs _ (by simp [Op.sources])).trans h2), nofun⟩

omit [Field K] [DecidableEq K] in
/-- the subject of a call that can be asked for by name is its destination -/
theorem offered_dest {b : Bool} {alg : Alg} {op : Op K} (h : Offered w b alg op) : op.dest = some (subject op) := by
  cases b <;> cases alg <;> cases op <;> first | rfl | exact h.elim

theorem pallowed_local {s s' t : PState K} {op : POp K} {out : Out K} (h : PAllowed bad w s op out t) (hm : ∀ a ∈ op.matUses, s'.mat a = s.mat a)
    (hp : ∀ p ∈ op.permUses, s'.perm p = s.perm p) :
    ∃ t', PAllowed bad w s' op out t' ∧ (∀ d, op.dest = some d → t'.mat d = t.mat d) ∧ ∀ p ∈ op.permDests, t'.perm p = t.perm p := by
  have hd : ∀ d ∈ op.dest, s'.mat d = s.mat d := fun d h => hm d (by simp [POp.matUses, Option.mem_def.1 h])
  have hs : ∀ a ∈ op.sources, s'.mat a = s.mat a := fun a h => hm a (by simp [POp.matUses, h])
  have hpd : ∀ a ∈ op.permDests, s'.perm a = s.perm a := fun a h => hp a (by simp [POp.permUses, h])
  have hps : ∀ a ∈ op.permSources, s'.perm a = s.perm a := fun a h => hp a (by simp [POp.permUses, h])
  have fin : ∀ {d : Nat} {X : Option (AMat K)} (d' : Nat), some d = some d' → s'.mat.set d X d' = s.mat.set d X d' := by
    intro d X d' e
    cases e
    rw [aset_self, aset_self]
  have fin1 : ∀ {p : Nat} {x : Option APerm}, ∀ k ∈ [p], (if k = p then x else s'.perm k) = (if k = p then x else s.perm k) := by
    intro p x k hk
    rw [if_pos (List.mem_singleton.1 hk), if_pos (List.mem_singleton.1 hk)]
  have fin2 : ∀ {p q : Nat} {x y : Option APerm}, ∀ k ∈ [p, q],
      (if k = q then y else if k = p then x else s'.perm k) = (if k = q then y else if k = p then x else s.perm k) := by
    intro p q x y k hk
    rcases List.mem_cons.1 hk with rfl | hk
    · simp only [if_true]
    · simp only [List.mem_singleton.1 hk, if_true]
  cases h with
  | base h =>
    obtain ⟨t', h1, h2⟩ := allowed_local h hd hs
    exact ⟨_, .base h1, h2, nofun⟩
  | named hX hoff h =>
    obtain ⟨t', h1, h2⟩ := allowed_local h hd hs
    exact ⟨_, .named ((hd _ (offered_dest hoff)).trans hX) hoff h1, h2, nofun⟩
  | permInit p n h1 => exact ⟨_, .permInit p n ((hpd p (by simp [POp.permDests])).trans h1), nofun, fin1⟩
  | permFree p h1 => exact ⟨_, .permFree p ((hpd p (by simp [POp.permDests])).trans h1), nofun, fin1⟩
  | applyLeft h1 h2 => exact ⟨_, .applyLeft ((hps _ (by simp [POp.permSources])).trans h1) ((hd _ rfl).trans h2), fin, nofun⟩
  | applyLeftTrans h1 h2 => exact ⟨_, .applyLeftTrans ((hps _ (by simp [POp.permSources])).trans h1) ((hd _ rfl).trans h2), fin, nofun⟩
  | applyRight h1 h2 => exact ⟨_, .applyRight ((hps _ (by simp [POp.permSources])).trans h1) ((hd _ rfl).trans h2), fin, nofun⟩
  | applyRightTrans h1 h2 => exact ⟨_, .applyRightTrans ((hps _ (by simp [POp.permSources])).trans h1) ((hd _ rfl).trans h2), fin, nofun⟩
  | decompose hpq h1 h2 h3 h4 h5 h6 =>
    exact ⟨_, .decompose hpq ((hpd _ (by simp [POp.permDests])).trans h1) ((hpd _ (by simp [POp.permDests])).trans h2) ((hd _ rfl).trans h3) h4 h5 h6, fin, fin2⟩
  | decomposeBy ha hpq h1 h2 h3 h4 h5 h6 =>
    exact ⟨_, .decomposeBy ha hpq ((hpd _ (by simp [POp.permDests])).trans h1) ((hpd _ (by simp [POp.permDests])).trans h2) ((hd _ rfl).trans h3) h4 h5 h6, fin, fin2⟩
  | pluq hpq h1 h2 h3 h4 h5 h6 =>
    exact ⟨_, .pluq hpq ((hpd _ (by simp [POp.permDests])).trans h1) ((hpd _ (by simp [POp.permDests])).trans h2) ((hd _ rfl).trans h3) h4 h5 h6, fin, fin2⟩
  | rowAdd i j h1 => exact ⟨_, .rowAdd i j ((hd _ rfl).trans h1), fin, nofun⟩
  | copyRow i j h1 h2 => exact ⟨_, .copyRow i j ((hd _ rfl).trans h1) ((hs _ (by simp [POp.sources])).trans h2), fin, nofun⟩
  | firstZeroRow h1 h2 h3 h4 => exact ⟨_, .firstZeroRow ((hs _ (by simp [POp.sources])).trans h1) h2 h3 h4, nofun, nofun⟩
  | addmulScalar x h1 h2 h3 => exact ⟨_, .addmulScalar x ((hd _ rfl).trans h1) ((hs _ (by simp [POp.sources])).trans h2) h3, fin, nofun⟩

theorem pallowed_perm {s t : PState K} {op : POp K} {out : Out K} (h : PAllowed bad w s op out t) (k : Nat) (hk : k ∉ op.permDests) : t.perm k = s.perm k := by
  cases h with
  | permInit p n h1 => exact if_neg (by simpa [POp.permDests] using hk)
  | permFree p h1 => exact if_neg (by simpa [POp.permDests] using hk)
  | decompose hpq h1 h2 h3 h4 h5 h6 =>
    simp only [POp.permDests, List.mem_cons, List.not_mem_nil, or_false, not_or] at hk
    exact (if_neg hk.2).trans (if_neg hk.1)
  | decomposeBy ha hpq h1 h2 h3 h4 h5 h6 =>
    simp only [POp.permDests, List.mem_cons, List.not_mem_nil, or_false, not_or] at hk
    exact (if_neg hk.2).trans (if_neg hk.1)
  | pluq hpq h1 h2 h3 h4 h5 h6 =>
    simp only [POp.permDests, List.mem_cons, List.not_mem_nil, or_false, not_or] at hk
    exact (if_neg hk.2).trans (if_neg hk.1)
  | _ => rfl

/-! ### one step as a function of the outcome -/

/-- the state after a call whose outcome on the matrices it sees is `t` -/
def upd (s : WState K) (op : POp K) (t : PState K) : WState K :=
  ⟨match op.dest with | none => s.mats | some d => s.mats.put d (t.mat d), fun k => if k ∈ op.permDests then t.perm k else s.perm k⟩

theorem wallowed_iff {s s' : WState K} {op : POp K} {out : Out K} :
    WAllowed bad w aligned s (.call op) out s' ↔ ∃ t, s.Clear op ∧ PAllowed bad w s.look op out t ∧ s' = upd s op t := by
  have hperm : ∀ {t : PState K}, PAllowed bad w s.look op out t → (fun k => if k ∈ op.permDests then t.perm k else s.perm k) = t.perm := by
    intro t ha
    funext k
    by_cases hk : k ∈ op.permDests
    · rw [if_pos hk]
    · rw [if_neg hk]; exact (pallowed_perm ha k hk).symm
  constructor
  · intro h
    cases h with
    | @read _ _ t hd ha =>
      refine ⟨t, ⟨fun d hd' => (by rw [hd] at hd'; cases hd'), fun d e => (by rw [e] at hd; cases hd)⟩, ha, ?_⟩
      rw [upd, hd, hperm ha]
    | @write _ _ d t hd hc ha =>
      refine ⟨t, hc, ha, ?_⟩
      rw [upd, hd, hperm ha]
  · rintro ⟨t, hc, ha, rfl⟩
    rcases hd : op.dest with _ | d
    · rw [upd, hd, hperm ha]; exact .read hd ha
    · rw [upd, hd, hperm ha]; exact .write hd hc ha

omit [DecidableEq K] in
theorem upd_mats_none {s : WState K} {op : POp K} {t : PState K} (h : op.dest = none) : (upd s op t).mats = s.mats := by rw [upd, h]

omit [DecidableEq K] in
theorem upd_mats_some {s : WState K} {op : POp K} {t : PState K} {d : Nat} (h : op.dest = some d) : (upd s op t).mats = s.mats.put d (t.mat d) := by rw [upd, h]

omit [DecidableEq K] in
theorem upd_wins (s : WState K) (op : POp K) (t : PState K) : (upd s op t).mats.wins = s.mats.wins := by
  unfold upd
  rcases op.dest with _ | d
  · rfl
  · show (s.mats.put d (t.mat d)).wins = _
    unfold VState.put
    split <;> rfl

/-! ### rectangles that share no entry -/

theorem disjoint_symm {v u : View} (h : v.Disjoint u) : u.Disjoint v := by
  unfold View.Disjoint at *
  rcases h with h | h | h | h | h
  · exact Or.inl (Ne.symm h)
  all_goals tauto

theorem apart_symm {wins : Nat → Option View} {d a : Nat} (h : Apart wins d a) : Apart wins a d := by
  refine ⟨Ne.symm h.1, ?_⟩
  have := h.2
  revert this
  rcases wins d with _ | v <;> rcases wins a with _ | u
  · exact id
  · exact id
  · exact id
  · exact disjoint_symm

omit [DecidableEq K] in
theorem ofFin_paste (X : AMat K) (v : View) (Y : AMat K) {i j : Nat} (h : ¬ ((v.r ≤ i ∧ i < v.r + v.m) ∧ v.c ≤ j ∧ j < v.c + v.n)) :
    ofFin (X.paste v Y).val i j = ofFin X.val i j := by
  unfold ofFin
  by_cases hb : i < X.m ∧ j < X.n
  · rw [dif_pos hb, dif_pos (show i < (X.paste v Y).m ∧ j < (X.paste v Y).n from hb)]
    exact if_neg h
  · rw [dif_neg hb, dif_neg (show ¬ (i < (X.paste v Y).m ∧ j < (X.paste v Y).n) from hb)]

omit [DecidableEq K] in
theorem cut_paste (X : AMat K) {v u : View} (Y : AMat K) (h : v.Disjoint u) (hr : v.root = u.root) : (X.paste v Y).cut u = X.cut u := by
  unfold AMat.cut
  congr 1
  funext i j
  refine ofFin_paste X v Y ?_
  rcases h with h | h
  · exact absurd hr h
  · omega

omit [DecidableEq K] in
theorem paste_paste (X : AMat K) {v u : View} (Y Z : AMat K) (h : v.Disjoint u) (hr : v.root = u.root) :
    (X.paste v Y).paste u Z = (X.paste u Z).paste v Y := by
  unfold AMat.paste
  congr 1
  funext i j
  dsimp only
  by_cases h1 : (v.r ≤ i.1 ∧ i.1 < v.r + v.m) ∧ v.c ≤ j.1 ∧ j.1 < v.c + v.n
  · by_cases h2 : (u.r ≤ i.1 ∧ i.1 < u.r + u.m) ∧ u.c ≤ j.1 ∧ j.1 < u.c + u.n
    · exfalso
      rcases h with h | h
      · exact absurd hr h
      · omega
    · rw [if_neg h2, if_pos h1, if_pos h1]
  · rw [if_neg h1, if_neg h1]

omit [DecidableEq K] in
/-- the buffers after `put` -/
theorem put_bufs (s : VState K) (d : Nat) (Y : Option (AMat K)) : s.put d Y = { s with bufs := (s.put d Y).bufs } := by
  unfold VState.put
  split <;> rfl

omit [DecidableEq K] in
theorem look_put {s : VState K} {d a : Nat} {Y : Option (AMat K)} (h : Apart s.wins d a) (hY : Y = none → s.wins d = none) : (s.put d Y).look a = s.look a := by
  obtain ⟨hne, h⟩ := h
  unfold VState.put
  rcases hd : s.wins d with _ | v
  · rw [hd] at h
    rcases ha : s.wins a with _ | u
    · simp only [VState.look, ha]
      exact if_neg (Ne.symm hne)
    · rw [ha] at h
      simp only [VState.look, ha]
      rw [AState.set, if_neg h]
  · rcases Y with _ | Y
    · rw [hd] at hY; cases hY rfl
    rw [hd] at h
    rcases ha : s.wins a with _ | u
    · rw [ha] at h
      simp only [VState.look, ha]
      exact if_neg (Ne.symm h)
    · rw [ha] at h
      simp only [VState.look, ha]
      by_cases hr : u.root = v.root
      · rw [AState.set, if_pos hr, hr]
        rcases s.bufs v.root with _ | X
        · rfl
        · exact congrArg some (cut_paste X Y h hr.symm)
      · rw [AState.set, if_neg hr]

omit [DecidableEq K] in
theorem place_put {s : VState K} {d a : Nat} {Y : Option (AMat K)} (h : Apart s.wins d a) (hY : Y = none → s.wins d = none) : (s.put d Y).place a = s.place a := by
  obtain ⟨hne, h⟩ := h
  unfold VState.put
  rcases hd : s.wins d with _ | v
  · rw [hd] at h
    rcases ha : s.wins a with _ | u
    · simp only [VState.place, ha]
      rw [AState.set, if_neg (Ne.symm hne)]
    · simp only [VState.place, ha]
  · rcases Y with _ | Y
    · rw [hd] at hY; cases hY rfl
    rw [hd] at h
    rcases ha : s.wins a with _ | u
    · rw [ha] at h
      simp only [VState.place, ha]
      rw [AState.set, if_neg (Ne.symm h)]
    · simp only [VState.place, ha]

omit [DecidableEq K] in
theorem put_put {s : VState K} {d a : Nat} {Y Z : Option (AMat K)} (h : Apart s.wins d a) (hY : Y = none → s.wins d = none) (hZ : Z = none → s.wins a = none) :
    (s.put d Y).put a Z = (s.put a Z).put d Y := by
  obtain ⟨hne, h⟩ := h
  have setset : ∀ {b : AState K} {p q : Nat} {X X' : Option (AMat K)}, p ≠ q → (b.set p X).set q X' = (b.set q X').set p X := by
    intro b p q X X' hpq
    funext k
    unfold AState.set
    by_cases h1 : k = q
    · rw [if_pos h1, if_neg (fun e => hpq (e.symm.trans h1)), if_pos h1]
    · rw [if_neg h1, if_neg h1]
  rcases hd : s.wins d with _ | v
  · rw [hd] at h
    rcases ha : s.wins a with _ | u
    · simp only [VState.put, hd, ha, setset hne]
    · rw [ha] at h
      rcases Z with _ | Z
      · rw [ha] at hZ; cases hZ rfl
      simp only [VState.put, hd, ha]
      rw [setset (Ne.symm h), show s.bufs.set d Y u.root = s.bufs u.root from if_neg h]
  · rcases Y with _ | Y
    · rw [hd] at hY; cases hY rfl
    rw [hd] at h
    rcases ha : s.wins a with _ | u
    · rw [ha] at h
      simp only [VState.put, hd, ha]
      rw [setset h, show s.bufs.set a Z v.root = s.bufs v.root from if_neg h]
    · rcases Z with _ | Z
      · rw [ha] at hZ; cases hZ rfl
      rw [ha] at h
      simp only [VState.put, hd, ha]
      by_cases hr : v.root = u.root
      · rw [hr]
        have e : ∀ (b : AState K) (p : Nat) (X X' : Option (AMat K)), (b.set p X).set p X' = b.set p X' := by
          intro b p X X'
          funext k
          unfold AState.set
          by_cases h1 : k = p
          · rw [if_pos h1, if_pos h1]
          · rw [if_neg h1, if_neg h1, if_neg h1]
        rw [e, e, aset_self, aset_self, Option.map_map, Option.map_map]
        congr 2
        rcases s.bufs u.root with _ | X
        · rfl
        · exact congrArg some (paste_paste X Y Z h hr)
      · rw [setset hr, show s.bufs.set v.root _ u.root = s.bufs u.root from if_neg (Ne.symm hr),
          show s.bufs.set u.root _ v.root = s.bufs v.root from if_neg hr]

/-! ### calls that are apart commute -/

/-- what `op` writes is apart from what it is about to leave alone -/
theorem upd_look {s : WState K} {x y : POp K} {out : Out K} {t : PState K} (hc : s.Clear x) (ha : PAllowed bad w s.look x out t) (h : WritesApart s.mats.wins x y) :
    (∀ a ∈ y.matUses, (upd s x t).look.mat a = s.look.mat a ∧ (upd s x t).mats.place a = s.mats.place a) ∧
      ∀ p ∈ y.permUses, (upd s x t).look.perm p = s.look.perm p := by
  constructor
  · intro a hm
    rcases hd : x.dest with _ | d
    · have : (upd s x t).mats = s.mats := by rw [upd, hd]
      exact ⟨by rw [WState.look, WState.look, this], by rw [this]⟩
    · have : (upd s x t).mats = s.mats.put d (t.mat d) := by rw [upd, hd]
      have hn : t.mat d = none → s.mats.wins d = none := fun e => (hc.2 d (((pallowed_dest ha).2 d hd).2.2 e)).1
      have hap := h.1 d hd a hm
      rw [this]
      refine ⟨?_, place_put hap hn⟩
      show (upd s x t).mats.look a = s.mats.look a
      rw [this]
      exact look_put hap hn
  · intro p hp
    exact if_neg fun hx => h.2 p hx hp

theorem clear_upd {s : WState K} {x y : POp K} {out : Out K} {t : PState K} (hc : s.Clear x) (ha : PAllowed bad w s.look x out t) (h : WritesApart s.mats.wins x y) :
    (upd s x t).Clear y ↔ s.Clear y := by
  have hp : ∀ a ∈ y.matUses, (upd s x t).mats.place a = s.mats.place a := fun a hm => ((upd_look hc ha h).1 a hm).2
  have h1 : ∀ d ∈ y.dest, d ∈ y.matUses := fun d hd => by simp [POp.matUses, Option.mem_def.1 hd]
  have h2 : ∀ a ∈ y.sources, a ∈ y.matUses := fun a ha => by simp [POp.matUses, ha]
  unfold WState.Clear
  rw [upd_wins]
  constructor
  · rintro ⟨g1, g2⟩
    refine ⟨fun d hd a ha hne v hv u hu => g1 d hd a ha hne v ?_ u ?_, g2⟩
    · rw [hp d (h1 d hd)]; exact hv
    · rw [hp a (h2 a ha)]; exact hu
  · rintro ⟨g1, g2⟩
    refine ⟨fun d hd a ha hne v hv u hu => g1 d hd a ha hne v ?_ u ?_, g2⟩
    · rw [← hp d (h1 d hd)]; exact hv
    · rw [← hp a (h2 a ha)]; exact hu

/-- a call that is apart from the one before could have come first .. -/
theorem wcall_back {s s1 s2 : WState K} {x y : POp K} {o1 o2 : Out K} (hxy : WritesApart s.mats.wins x y) (hyx : WritesApart s.mats.wins y x)
    (h1 : WAllowed bad w aligned s (.call x) o1 s1) (h2 : WAllowed bad w aligned s1 (.call y) o2 s2) :
    ∃ s1', WAllowed bad w aligned s (.call y) o2 s1' ∧ WAllowed bad w aligned s1' (.call x) o1 s2 := by
  obtain ⟨t1, c1, a1, rfl⟩ := wallowed_iff.1 h1
  obtain ⟨t2, c2, a2, rfl⟩ := wallowed_iff.1 h2
  have l1 := upd_look c1 a1 hxy
  obtain ⟨t2', b2, b2m, b2p⟩ := pallowed_local (s' := s.look) a2 (fun a ha => ((l1.1 a ha).1).symm) (fun p hp => (l1.2 p hp).symm)
  have c2' := (clear_upd c1 a1 hxy).1 c2
  have l2 := upd_look c2' b2 hyx
  obtain ⟨t1', b1, b1m, b1p⟩ := pallowed_local (s' := (upd s y t2').look) a1 (fun a ha => (l2.1 a ha).1) (fun p hp => l2.2 p hp)
  have c1' := (clear_upd c2' b2 hyx).2 c1
  refine ⟨_, wallowed_iff.2 ⟨t2', c2', b2, rfl⟩, wallowed_iff.2 ⟨t1', c1', b1, ?_⟩⟩
  have hperm : (upd (upd s x t1) y t2).perm = (upd (upd s y t2') x t1').perm := by
    funext k
    show (if k ∈ y.permDests then t2.perm k else if k ∈ x.permDests then t1.perm k else s.perm k) =
      (if k ∈ x.permDests then t1'.perm k else if k ∈ y.permDests then t2'.perm k else s.perm k)
    by_cases hy : k ∈ y.permDests
    · rw [if_pos hy, if_neg (fun hx => hxy.2 k hx (by simp [POp.permUses, hy])), if_pos hy, b2p k hy]
    · rw [if_neg hy, if_neg hy]
      by_cases hx : k ∈ x.permDests
      · rw [if_pos hx, if_pos hx, b1p k hx]
      · rw [if_neg hx, if_neg hx]
  have hmats : (upd (upd s x t1) y t2).mats = (upd (upd s y t2') x t1').mats := by
    rcases hx : x.dest with _ | d
    · rcases hy : y.dest with _ | e
      · rw [upd_mats_none hy, upd_mats_none hx, upd_mats_none hx, upd_mats_none hy]
      · rw [upd_mats_some hy, upd_mats_none hx, upd_mats_none hx, upd_mats_some hy, b2m e hy]
    · rcases hy : y.dest with _ | e
      · rw [upd_mats_none hy, upd_mats_some hx, upd_mats_some hx, upd_mats_none hy, b1m d hx]
      · rw [upd_mats_some hy, upd_mats_some hx, upd_mats_some hx, upd_mats_some hy, b1m d hx, b2m e hy]
        refine put_put (hxy.1 d hx e (by simp [POp.matUses, hy])) (fun h => (c1.2 d (((pallowed_dest a1).2 d hx).2.2 h)).1) fun h => ?_
        have := (c2'.2 e (((pallowed_dest a2).2 e hy).2.2 h)).1
        exact this
  calc upd (upd s x t1) y t2 = ⟨(upd (upd s x t1) y t2).mats, (upd (upd s x t1) y t2).perm⟩ := rfl
    _ = _ := by rw [hmats, hperm]

/-- .. and is permitted if both are permitted in the beginning -/
theorem wcall_forth {s s1 s2 : WState K} {x y : POp K} {o1 o2 : Out K} (hxy : WritesApart s.mats.wins x y)
    (h1 : WAllowed bad w aligned s (.call x) o1 s1) (h2 : WAllowed bad w aligned s (.call y) o2 s2) : ∃ s3, WAllowed bad w aligned s1 (.call y) o2 s3 := by
  obtain ⟨t1, c1, a1, rfl⟩ := wallowed_iff.1 h1
  obtain ⟨t2, c2, a2, rfl⟩ := wallowed_iff.1 h2
  have l1 := upd_look c1 a1 hxy
  obtain ⟨t2', b2, -, -⟩ := pallowed_local (s' := (upd s x t1).look) a2 (fun a ha => (l1.1 a ha).1) (fun p hp => l1.2 p hp)
  exact ⟨_, wallowed_iff.2 ⟨t2', (clear_upd c1 a1 hxy).2 c2, b2, rfl⟩⟩

theorem wallowed_wins {s s1 : WState K} {x : POp K} {o : Out K} (h : WAllowed bad w aligned s (.call x) o s1) : s1.mats.wins = s.mats.wins := by
  obtain ⟨t, -, -, rfl⟩ := wallowed_iff.1 h
  exact upd_wins s x t

/-! ### schedules -/

/-- the calls of a schedule as a program -/
abbrev prog (zs : Schedule K) : List (WOp K) := zs.map fun z => .call z.2

theorem wsafe_swap {s : WState K} {x y : POp K} {ops : List (WOp K)} (hxy : WritesApart s.mats.wins x y) (hyx : WritesApart s.mats.wins y x)
    (h : WSafe bad w aligned s (.call x :: .call y :: ops)) : WSafe bad w aligned s (.call y :: .call x :: ops) := by
  obtain ⟨⟨o1, s1, h1⟩, g1⟩ := h
  obtain ⟨⟨o2, s2, h2⟩, g2⟩ := g1 o1 s1 h1
  obtain ⟨s1', k1, k2⟩ := wcall_back hxy hyx h1 h2
  refine ⟨⟨o2, s1', k1⟩, fun o3 s3 h3 => ?_⟩
  obtain ⟨s4, h4⟩ := wcall_forth hyx h3 h1
  refine ⟨⟨o1, s4, h4⟩, fun o5 s5 h5 => ?_⟩
  obtain ⟨s6, j1, j2⟩ := wcall_back hyx hxy h3 h5
  exact (g1 o5 s6 j1).2 o3 s5 j2

/-- a call can be moved to the front past calls it is apart from -/
theorem wsafe_front {u : Nat} {y : POp K} (post : Schedule K) : ∀ (pre : Schedule K) {s : WState K},
    (∀ z ∈ pre, WritesApart s.mats.wins z.2 y ∧ WritesApart s.mats.wins y z.2) → WSafe bad w aligned s (prog (pre ++ (u, y) :: post)) →
    WSafe bad w aligned s (.call y :: prog (pre ++ post)) := by
  intro pre
  induction pre with
  | nil => intro s _ h; exact h
  | cons z pre ih =>
    intro s ha h
    obtain ⟨z1, z2⟩ := ha z (by simp)
    have h' : WSafe bad w aligned s (.call z.2 :: .call y :: prog (pre ++ post)) :=
      ⟨h.1, fun o s' hs => ih (fun z' hz' => by rw [wallowed_wins hs]; exact ha z' (List.mem_cons_of_mem _ hz')) (h.2 o s' hs)⟩
    exact wsafe_swap z1 z2 h'

/-- the results of a run in which the call comes first are results of the run in which it comes in its place -/
theorem wruns_front {u : Nat} {y : POp K} (post : Schedule K) : ∀ (pre : Schedule K) {s s' : WState K} {o : Out K} {outs : List (Out K)},
    (∀ z ∈ pre, z.1 ≠ u ∧ WritesApart s.mats.wins z.2 y ∧ WritesApart s.mats.wins y z.2) → WRuns bad w aligned s (.call y :: prog (pre ++ post)) (o :: outs) s' →
    ∃ outs', WRuns bad w aligned s (prog (pre ++ (u, y) :: post)) outs' s' ∧
      ∀ t, resultsOf (pre ++ (u, y) :: post) outs' t = resultsOf ((u, y) :: (pre ++ post)) (o :: outs) t := by
  intro pre
  induction pre with
  | nil => intro s s' o outs _ h; exact ⟨o :: outs, h, fun t => rfl⟩
  | cons z pre ih =>
    intro s s' o outs ha h
    obtain ⟨zu, z1, z2⟩ := ha z (by simp)
    cases h with
    | cons h1 h =>
      have h : WRuns bad w aligned _ (.call z.2 :: prog (pre ++ post)) outs s' := h
      cases h with
      | @cons _ _ _ _ _ o2 outs2 h2 h3 =>
        obtain ⟨s1, k1, k2⟩ := wcall_back z2 z1 h1 h2
        obtain ⟨outs', r1, r2⟩ := ih (s := s1) (o := o) (outs := outs2) (fun z' hz' => by rw [wallowed_wins k1]; exact ha z' (List.mem_cons_of_mem _ hz')) (.cons k2 h3)
        refine ⟨o2 :: outs', .cons k1 r1, fun t => ?_⟩
        obtain ⟨zt, zo⟩ := z
        show resultsOf ((zt, zo) :: (pre ++ (u, y) :: post)) (o2 :: outs') t = resultsOf ((u, y) :: (zt, zo) :: (pre ++ post)) (o :: o2 :: outs2) t
        by_cases hz : zt = t
        · subst hz
          have hut : u ≠ zt := Ne.symm zu
          rw [resultsOf_cons_self, r2, resultsOf_cons_ne hut, resultsOf_cons_ne hut, resultsOf_cons_self]
        · rw [resultsOf_cons_ne hz, r2]
          by_cases hu : u = t
          · subst hu
            rw [resultsOf_cons_self, resultsOf_cons_self, resultsOf_cons_ne hz]
          · rw [resultsOf_cons_ne hu, resultsOf_cons_ne hu, resultsOf_cons_ne hz]

omit [Field K] [DecidableEq K] in
/-- the first call of a thread in a schedule -/
theorem first_call {u : Nat} {y : POp K} : ∀ (zs : Schedule K) {rest : List (POp K)}, Schedule.of zs u = y :: rest →
    ∃ pre post, zs = pre ++ (u, y) :: post ∧ (∀ z ∈ pre, z.1 ≠ u) ∧ Schedule.of (pre ++ post) u = rest ∧ ∀ t, t ≠ u → Schedule.of (pre ++ post) t = Schedule.of zs t := by
  intro zs
  induction zs with
  | nil => intro rest h; cases h
  | cons z zs ih =>
    obtain ⟨t, op⟩ := z
    intro rest h
    by_cases ht : t = u
    · subst ht
      rw [Schedule.of_cons_self] at h
      obtain ⟨rfl, rfl⟩ := List.cons.inj h
      exact ⟨[], zs, rfl, nofun, rfl, fun v hv => (Schedule.of_cons_ne (Ne.symm hv) _ _).symm⟩
    · rw [Schedule.of_cons_ne ht] at h
      obtain ⟨pre, post, e, h1, h2, h3⟩ := ih h
      refine ⟨(t, op) :: pre, post, by rw [e]; rfl, ?_, ?_, ?_⟩
      · intro z hz
        rcases List.mem_cons.1 hz with rfl | hz
        · exact ht
        · exact h1 z hz
      · rw [List.cons_append, Schedule.of_cons_ne ht, h2]
      · intro v hv
        rw [List.cons_append]
        by_cases htv : t = v
        · subst htv
          rw [Schedule.of_cons_self, Schedule.of_cons_self, h3 t hv]
        · rw [Schedule.of_cons_ne htv, Schedule.of_cons_ne htv, h3 v hv]

omit [Field K] [DecidableEq K] in
theorem of_nil {zs : Schedule K} (h : ∀ t, Schedule.of zs t = []) : zs = [] := by
  rcases zs with _ | ⟨⟨t, op⟩, zs⟩
  · rfl
  · have := h t
    rw [Schedule.of_cons_self] at this
    cases this

/-- the order of calls of different threads does not matter for the specification -/
theorem reorder : ∀ (zs' zs : Schedule K) {s : WState K}, (∀ t, Schedule.of zs t = Schedule.of zs' t) → RaceFreeWindows s.mats.wins zs →
    WSafe bad w aligned s (prog zs) → WSafe bad w aligned s (prog zs') ∧
      ∀ outs' s', WRuns bad w aligned s (prog zs') outs' s' → ∃ outs, WRuns bad w aligned s (prog zs) outs s' ∧ ∀ t, resultsOf zs outs t = resultsOf zs' outs' t := by
  intro zs'
  induction zs' with
  | nil =>
    intro zs s hsame _ h
    rw [of_nil hsame]
    exact ⟨trivial, fun outs' s' hr => ⟨outs', hr, fun t => rfl⟩⟩
  | cons z zs' ih =>
    obtain ⟨u, y⟩ := z
    intro zs s hsame hr h
    have hu := hsame u
    rw [Schedule.of_cons_self] at hu
    obtain ⟨pre, post, rfl, h1, h2, h3⟩ := first_call zs hu
    have hap : ∀ z ∈ pre, z.1 ≠ u ∧ WritesApart s.mats.wins z.2 y ∧ WritesApart s.mats.wins y z.2 := fun z hz =>
      ⟨h1 z hz, hr z (by simp [hz]) (u, y) (by simp) (h1 z hz), hr (u, y) (by simp) z (by simp [hz]) (Ne.symm (h1 z hz))⟩
    have hf := wsafe_front post pre (fun z hz => (hap z hz).2) h
    have hsame' : ∀ t, Schedule.of (pre ++ post) t = Schedule.of zs' t := by
      intro t
      by_cases ht : t = u
      · subst ht; exact h2
      · rw [h3 t ht, hsame t, Schedule.of_cons_ne (Ne.symm ht)]
    have hr' : ∀ s1 : WState K, s1.mats.wins = s.mats.wins → RaceFreeWindows s1.mats.wins (pre ++ post) := by
      intro s1 e x hx y' hy'
      rw [e]
      refine hr x ?_ y' ?_
      · rcases List.mem_append.1 hx with hx | hx <;> simp [hx]
      · rcases List.mem_append.1 hy' with hy' | hy' <;> simp [hy']
    refine ⟨⟨hf.1, fun o s1 hs => (ih (pre ++ post) hsame' (hr' s1 (wallowed_wins hs)) (hf.2 o s1 hs)).1⟩, fun outs' s' hrun => ?_⟩
    have hrun : WRuns bad w aligned s (.call y :: prog zs') outs' s' := hrun
    cases hrun with
    | @cons _ s1 _ _ _ o outs2 k1 k2 =>
      obtain ⟨outs3, r1, r2⟩ := (ih (pre ++ post) hsame' (hr' s1 (wallowed_wins k1)) (hf.2 o s1 k1)).2 outs2 s' k2
      obtain ⟨outs, q1, q2⟩ := wruns_front post pre hap (.cons k1 r1)
      refine ⟨outs, q1, fun t => ?_⟩
      rw [q2]
      by_cases ht : u = t
      · subst ht; rw [resultsOf_cons_self, resultsOf_cons_self, r2]
      · rw [resultsOf_cons_ne ht, resultsOf_cons_ne ht, r2]

end spec

/-- **C69** Threads that share matrices but work on disjoint windows (or on different matrices), the windows having been made before: if one order of the calls
is permitted, so that C67 says what it does, then no order dies, and what happens in any other order - the results of every thread and the final contents of all
matrices and permutations - is what the specification says about the first order. -/
theorem C69_windows {pl : PLib} [IsField pl.ff] (hlib : PLibOk pl) (zs zs' : Schedule (Elem pl.ff)) (hsame : ∀ t, Schedule.of zs t = Schedule.of zs' t) {c : WPool}
    {s : WState (Elem pl.ff)} (h : WStores pl c s) (hr : RaceFreeWindows s.mats.wins zs)
    (hs : WSafe (badScalar pl.toLib) (bitsOf pl) (alignedAt pl.toLib) s (prog zs)) :
    ∃ c' outs' s', wrunProgram pl c (prog zs') = some (c', outs') ∧ WStores pl c' s' ∧
      ∃ outs, WRuns (badScalar pl.toLib) (bitsOf pl) (alignedAt pl.toLib) s (prog zs) outs s' ∧ ∀ t, resultsOf zs outs t = resultsOf zs' outs' t := by
  obtain ⟨h1, h2⟩ := reorder zs' zs hsame hr hs
  obtain ⟨c', outs', s', e, hrun, hst⟩ := C67_history hlib _ h h1
  obtain ⟨outs, g1, g2⟩ := h2 outs' s' hrun
  exact ⟨c', outs', s', e, hst, outs, g1, g2⟩

/-! ### calls with one possible outcome -/

/-- the specification of these calls permits one outcome only (a decomposition or a form that is not reduced is not unique) -/
def Definite {K : Type} : POp K → Prop
  | .base op | .named _ op => ∀ d, op ≠ .echelonize d false
  | .decompose _ _ _ | .decomposeBy _ _ _ _ | .pluq _ _ _ => False
  | _ => True

section
variable {K : Type} [Field K] [DecidableEq K] {bad : Nat → Nat → Prop} {w : Nat} {aligned : Bool → Nat → Prop}

theorem pallowed_unique {s t1 t2 : PState K} {op op' : POp K} {o1 o2 : Out K} (h1 : PAllowed bad w s op o1 t1) (h2 : PAllowed bad w s op' o2 t2) (he : op = op')
    (hdef : Definite op) : o1 = o2 ∧ t1 = t2 := by
  have some_perm : ∀ {p : Nat} {x y : APerm}, s.perm p = some x → s.perm p = some y → x = y := fun a b => Option.some.inj (a.symm.trans b)
  cases h1 <;> cases h2 <;> first | (simp only [reduceCtorEq] at he; done) | (exact hdef.elim) | skip
  case base.base a1 _ _ a2 =>
    cases he
    obtain ⟨rfl, rfl⟩ := allowed_unique a1 a2 rfl hdef
    exact ⟨rfl, rfl⟩
  case named.named a1 _ _ _ _ _ _ a2 =>
    cases he
    obtain ⟨rfl, rfl⟩ := allowed_unique a1 a2 rfl hdef
    exact ⟨rfl, rfl⟩
  case permInit.permInit => cases he; exact ⟨rfl, rfl⟩
  case permFree.permFree => cases he; exact ⟨rfl, rfl⟩
  case applyLeft.applyLeft p1 e1 _ _ _ _ _ _ p2 e2 =>
    cases he
    obtain rfl := some_perm p1 p2
    obtain ⟨rfl, -, rfl, hX⟩ := some_mat e1 e2
    obtain rfl := eq_of_heq hX
    exact ⟨rfl, rfl⟩
  case applyLeftTrans.applyLeftTrans p1 e1 _ _ _ _ _ _ p2 e2 =>
    cases he
    obtain rfl := some_perm p1 p2
    obtain ⟨rfl, -, rfl, hX⟩ := some_mat e1 e2
    obtain rfl := eq_of_heq hX
    exact ⟨rfl, rfl⟩
  case applyRight.applyRight p1 e1 _ _ _ _ _ _ p2 e2 =>
    cases he
    obtain rfl := some_perm p1 p2
    obtain ⟨rfl, rfl, -, hX⟩ := some_mat e1 e2
    obtain rfl := eq_of_heq hX
    exact ⟨rfl, rfl⟩
  case applyRightTrans.applyRightTrans p1 e1 _ _ _ _ _ _ p2 e2 =>
    cases he
    obtain rfl := some_perm p1 p2
    obtain ⟨rfl, rfl, -, hX⟩ := some_mat e1 e2
    obtain rfl := eq_of_heq hX
    exact ⟨rfl, rfl⟩
  case rowAdd.rowAdd i j e1 _ _ _ _ i' j' e2 =>
    simp only [POp.rowAdd.injEq] at he
    obtain ⟨rfl, hi, hj⟩ := he
    obtain ⟨-, rfl, rfl, hX⟩ := some_mat e1 e2
    obtain rfl := eq_of_heq hX
    obtain rfl := Fin.ext hi
    obtain rfl := Fin.ext hj
    exact ⟨rfl, rfl⟩
  case copyRow.copyRow i j e1 f1 _ _ _ _ _ _ _ i' j' e2 f2 =>
    simp only [POp.copyRow.injEq] at he
    obtain ⟨rfl, hi, rfl, hj⟩ := he
    obtain ⟨-, rfl, rfl, hX⟩ := some_mat e1 e2
    obtain ⟨-, rfl, -, hY⟩ := some_mat f1 f2
    obtain rfl := eq_of_heq hX
    obtain rfl := eq_of_heq hY
    obtain rfl := Fin.ext hi
    obtain rfl := Fin.ext hj
    exact ⟨rfl, rfl⟩
  case firstZeroRow.firstZeroRow k _ e1 a1 a2 a3 _ _ _ k' _ e2 b1 b2 b3 =>
    cases he
    obtain ⟨-, rfl, rfl, hX⟩ := some_mat e1 e2
    obtain rfl := eq_of_heq hX
    refine ⟨?_, rfl⟩
    rcases lt_trichotomy k k' with h | h | h
    · exact absurd (a2 ⟨k' - 1, by omega⟩ (by simp only; omega)) (b3 ⟨k' - 1, by omega⟩ (by simp only; omega))
    · rw [h]
    · exact absurd (b2 ⟨k - 1, by omega⟩ (by simp only; omega)) (a3 ⟨k - 1, by omega⟩ (by simp only; omega))
  case addmulScalar.addmulScalar e1 f1 _ _ _ _ _ _ _ _ e2 f2 _ =>
    cases he
    obtain ⟨-, rfl, rfl, hX⟩ := some_mat e1 e2
    obtain ⟨-, -, -, hY⟩ := some_mat f1 f2
    obtain rfl := eq_of_heq hX
    obtain rfl := eq_of_heq hY
    exact ⟨rfl, rfl⟩

theorem wruns_unique : ∀ {zs : Schedule K} {s s1 s2 : WState K} {o1 o2 : List (Out K)}, (∀ z ∈ zs, Definite z.2) → WRuns bad w aligned s (prog zs) o1 s1 →
    WRuns bad w aligned s (prog zs) o2 s2 → o1 = o2 ∧ s1 = s2 := by
  intro zs
  induction zs with
  | nil =>
    intro s s1 s2 o1 o2 _ h1 h2
    have h1 : WRuns bad w aligned s [] o1 s1 := h1
    have h2 : WRuns bad w aligned s [] o2 s2 := h2
    cases h1; cases h2
    exact ⟨rfl, rfl⟩
  | cons z zs ih =>
    intro s s1 s2 o1 o2 hd h1 h2
    have h1 : WRuns bad w aligned s (.call z.2 :: prog zs) o1 s1 := h1
    have h2 : WRuns bad w aligned s (.call z.2 :: prog zs) o2 s2 := h2
    cases h1 with
    | cons a1 b1 =>
    cases h2 with
    | cons a2 b2 =>
    obtain ⟨t1, -, c1, rfl⟩ := wallowed_iff.1 a1
    obtain ⟨t2, -, c2, rfl⟩ := wallowed_iff.1 a2
    obtain ⟨rfl, rfl⟩ := pallowed_unique c1 c2 rfl (hd z (by simp))
    obtain ⟨rfl, rfl⟩ := ih (fun z hz => hd z (List.mem_cons_of_mem _ hz)) b1 b2
    exact ⟨rfl, rfl⟩

end

/-- **C69** ... and if the calls have only one possible outcome, then all orders give every thread the same results and leave the same elements in all matrices,
and the same permutations. -/
theorem C69_windows_any_order {pl : PLib} [IsField pl.ff] (hlib : PLibOk pl) (zs zs' : Schedule (Elem pl.ff)) (hsame : ∀ t, Schedule.of zs t = Schedule.of zs' t) {c : WPool}
    {s : WState (Elem pl.ff)} (h : WStores pl c s) (hr : RaceFreeWindows s.mats.wins zs)
    (hs : WSafe (badScalar pl.toLib) (bitsOf pl) (alignedAt pl.toLib) s (prog zs)) (hdef : ∀ z ∈ zs, Definite z.2) :
    ∃ c1 c2 outs outs' s', wrunProgram pl c (prog zs) = some (c1, outs) ∧ wrunProgram pl c (prog zs') = some (c2, outs') ∧ WStores pl c1 s' ∧ WStores pl c2 s' ∧
      ∀ t, resultsOf zs outs t = resultsOf zs' outs' t := by
  obtain ⟨c1, outs, s1, e1, r1, w1⟩ := C67_history hlib _ h hs
  obtain ⟨c2, outs', s2, e2, w2, outs2, r2, q⟩ := C69_windows hlib zs zs' hsame h hr hs
  obtain ⟨rfl, rfl⟩ := wruns_unique hdef r1 r2
  exact ⟨c1, c2, outs, outs', s1, e1, e2, w1, w2, q⟩

/-! ### an instance -/

/-- a 4 × 16 matrix and windows showing its left and its right half -/
def halves : Nat → Option View := fun k => if k = 1 then some ⟨0, 0, 0, 4, 8⟩ else if k = 2 then some ⟨0, 0, 8, 4, 8⟩ else none

theorem halves_step {K : Type} [Field K] [DecidableEq K] {bad : Nat → Nat → Prop} {w : Nat} {aligned : Bool → Nat → Prop} {s s' : WState K} {op : POp K} {o : Out K} {d : Nat}
    (hw : s.mats.wins = halves) (hb : ∃ X : Matrix (Fin 4) (Fin 16) K, s.mats.bufs 0 = some ⟨false, 4, 16, X⟩) (hd : op.dest = some d) (h12 : d = 1 ∨ d = 2)
    (h : WAllowed bad w aligned s (.call op) o s') : s'.mats.wins = halves ∧ ∃ X : Matrix (Fin 4) (Fin 16) K, s'.mats.bufs 0 = some ⟨false, 4, 16, X⟩ := by
  refine ⟨(wallowed_wins h).trans hw, ?_⟩
  obtain ⟨t, hc, ha, rfl⟩ := wallowed_iff.1 h
  obtain ⟨X, hX⟩ := hb
  rw [upd_mats_some hd]
  obtain ⟨v, hv, hr⟩ : ∃ v, s.mats.wins d = some v ∧ v.root = 0 := by
    rw [hw]
    rcases h12 with rfl | rfl
    · exact ⟨_, rfl, rfl⟩
    · exact ⟨_, rfl, rfl⟩
  rcases ht : t.mat d with _ | Y
  · have := (hc.2 d (((pallowed_dest ha).2 d hd).2.2 ht)).1
    rw [hv] at this; cases this
  · refine ⟨(AMat.paste ⟨false, 4, 16, X⟩ v Y).val, ?_⟩
    unfold VState.put
    rw [hv]
    show s.mats.bufs.set v.root _ 0 = _
    rw [hr, aset_self, hX]
    rfl

/-- two threads over GF(2^8): thread 1 works on the left half of a matrix (three calls), thread 2 on the right half (two calls) -/
example : ∃ ff, ∃ _ : IsField ff, ff.degree = 8 ∧ PLibOk (stdPLib ff) ∧ ∃ (c : WPool) (s : WState (Elem ff)) (zs : Schedule (Elem ff)),
    zs = [(1, .base (.setUi 1 1)), (2, .base (.addElem 2 0 3 1)), (1, .base (.addElem 1 0 3 1)), (2, .base (.rowSwap 2 0 1)), (1, .base (.rescaleRow 1 2 4 1))] ∧
    WStores (stdPLib ff) c s ∧ s.mats.wins = halves ∧ RaceFreeWindows s.mats.wins zs ∧
    WSafe (badScalar (stdPLib ff).toLib) (bitsOf (stdPLib ff)) (alignedAt (stdPLib ff).toLib) s (prog zs) := by
  obtain ⟨ff, h, hd⟩ := exists_aes
  have hl : ∀ {s : WState (Elem ff)}, s.mats.wins = halves → (∃ X : Matrix (Fin 4) (Fin 16) (Elem ff), s.mats.bufs 0 = some ⟨false, 4, 16, X⟩) →
      ∀ d, d = 1 ∨ d = 2 → ∃ X : Matrix (Fin 4) (Fin 8) (Elem ff), s.look.mat d = some ⟨false, 4, 8, X⟩ := by
    rintro s hw ⟨X, hX⟩ d (rfl | rfl)
    · refine ⟨(AMat.cut ⟨false, 4, 16, X⟩ ⟨0, 0, 0, 4, 8⟩).val, ?_⟩
      show VState.look _ 1 = _
      unfold VState.look
      rw [hw, show halves 1 = some ⟨0, 0, 0, 4, 8⟩ from rfl]
      show (s.mats.bufs 0).map _ = _
      rw [hX]; rfl
    · refine ⟨(AMat.cut ⟨false, 4, 16, X⟩ ⟨0, 0, 8, 4, 8⟩).val, ?_⟩
      show VState.look _ 2 = _
      unfold VState.look
      rw [hw, show halves 2 = some ⟨0, 0, 8, 4, 8⟩ from rfl]
      show (s.mats.bufs 0).map _ = _
      rw [hX]; rfl
  have hcl : ∀ {s : WState (Elem ff)} {op : POp (Elem ff)}, op.sources = [] → (∀ d, op ≠ .base (.free d)) → s.Clear op :=
    fun h1 h2 => ⟨fun _ _ a ha => absurd (h1 ▸ ha) List.not_mem_nil, fun d e => absurd e (h2 d)⟩
  refine ⟨ff, h, hd, stdPLib_ok ff, ⟨⟨fun k => if k = 0 then some (.packed (Mat.pack (ff := ff) ⟨4, 16, 0, fun _ _ => 1⟩)) else none, halves⟩, fun _ => none⟩,
    ⟨⟨fun k => if k = 0 then some ⟨false, 4, 16, fun _ _ => 1⟩ else none, halves⟩, fun _ => none⟩, _, rfl, ⟨⟨fun k => ?_, rfl, ?_⟩, fun _ => trivial⟩, rfl, ?_, ?_⟩
  · by_cases hk : k = 0
    · subst hk
      exact (⟨rfl, rfl, rfl, _, pack_rep (ff := ff) _, fun i j => rfl⟩ : HoldsP (stdLib ff) (Mat.pack (ff := ff) ⟨4, 16, 0, fun _ _ => 1⟩) (fun _ _ => 1 : Matrix (Fin 4) (Fin 16) (Elem ff)))
    · simp only [hk, if_false]
  · intro k v hv
    have hv : halves k = some v := hv
    have hal : alignedAt (stdPLib ff).toLib false 8 := by show degreeToW ff.degree * 8 % 64 = 0; rw [hd]; rfl
    unfold halves at hv
    by_cases h1 : k = 1
    · subst h1; cases hv; exact ⟨rfl, rfl, _, rfl, (by decide : 0 + 4 ≤ 4), (by decide : 0 + 8 ≤ 16), rfl⟩
    · rw [if_neg h1] at hv
      by_cases h2 : k = 2
      · subst h2; cases hv; exact ⟨rfl, rfl, _, rfl, (by decide : 0 + 4 ≤ 4), (by decide : 8 + 8 ≤ 16), hal⟩
      · rw [if_neg h2] at hv; cases hv
  · have key : ∀ x y : POp (Elem ff), x.matUses = [1] ∧ y.matUses = [2] ∨ x.matUses = [2] ∧ y.matUses = [1] → x.permDests = [] → WritesApart halves x y := by
      intro x y hxy hp
      refine ⟨fun d hd a ha => ?_, fun p hp' => by rw [hp] at hp'; cases hp'⟩
      have hd' : d ∈ x.matUses := by simp [POp.matUses, Option.mem_def.1 hd]
      rcases hxy with ⟨e1, e2⟩ | ⟨e1, e2⟩ <;> rw [e1] at hd' <;> rw [e2] at ha <;> cases List.mem_singleton.1 hd' <;> cases List.mem_singleton.1 ha
      · exact ⟨by decide, Or.inr (Or.inr (Or.inr (Or.inl (by decide))))⟩
      · exact ⟨by decide, Or.inr (Or.inr (Or.inr (Or.inr (by decide))))⟩
    intro x hx y hy hxy
    simp only [List.mem_cons, List.not_mem_nil, or_false] at hx hy
    rcases hx with rfl | rfl | rfl | rfl | rfl <;> rcases hy with rfl | rfl | rfl | rfl | rfl <;>
      first | exact absurd rfl hxy | exact key _ _ (Or.inl ⟨rfl, rfl⟩) rfl | exact key _ _ (Or.inr ⟨rfl, rfl⟩) rfl
  · obtain ⟨X, hX⟩ := hl (s := ⟨⟨fun k => if k = 0 then some ⟨false, 4, 16, fun _ _ => 1⟩ else none, halves⟩, fun _ => none⟩) rfl ⟨_, rfl⟩ 1 (Or.inl rfl)
    refine ⟨⟨_, _, wallowed_iff.2 ⟨_, hcl rfl nofun, .base (.setUi 1 hX), rfl⟩⟩, fun o1 s1 h1 => ?_⟩
    obtain ⟨w1, b1⟩ := halves_step rfl ⟨_, rfl⟩ rfl (Or.inl rfl) h1
    obtain ⟨X1, hX1⟩ := hl w1 b1 2 (Or.inr rfl)
    refine ⟨⟨_, _, wallowed_iff.2 ⟨_, hcl rfl nofun, .base (.addElem (0 : Fin 4) (3 : Fin 8) 1 hX1), rfl⟩⟩, fun o2 s2 h2 => ?_⟩
    obtain ⟨w2, b2⟩ := halves_step w1 b1 rfl (Or.inr rfl) h2
    obtain ⟨X2, hX2⟩ := hl w2 b2 1 (Or.inl rfl)
    refine ⟨⟨_, _, wallowed_iff.2 ⟨_, hcl rfl nofun, .base (.addElem (0 : Fin 4) (3 : Fin 8) 1 hX2), rfl⟩⟩, fun o3 s3 h3 => ?_⟩
    obtain ⟨w3, b3⟩ := halves_step w2 b2 rfl (Or.inl rfl) h3
    obtain ⟨X3, hX3⟩ := hl w3 b3 2 (Or.inr rfl)
    refine ⟨⟨_, _, wallowed_iff.2 ⟨_, hcl rfl nofun, .base (.rowSwap (0 : Fin 4) (1 : Fin 4) hX3), rfl⟩⟩, fun o4 s4 h4 => ?_⟩
    obtain ⟨w4, b4⟩ := halves_step w3 b3 rfl (Or.inr rfl) h4
    obtain ⟨X4, hX4⟩ := hl w4 b4 1 (Or.inl rfl)
    exact ⟨⟨_, _, wallowed_iff.2 ⟨_, hcl rfl nofun, .base (.rescaleRow (2 : Fin 4) (4 : Fin 8) 1 hX4), rfl⟩⟩, fun _ _ _ => trivial⟩

end M4rie.Props
