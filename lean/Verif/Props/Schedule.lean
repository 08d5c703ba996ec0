import Verif.Props.ProgramsSolve
import Verif.Spec.Schedule

/-!
# Property C69: threads that do not race do not influence each other
-/

namespace M4rie.Props
open M4rie M4rie.Spec

/-! ### every call depends on the variables it uses and changes those it writes, nothing else -/

/-- the pool after a call whose destination has become `o` -/
def wr (c : Pool) : Option Nat → Option Obj → Pool
  | none, _ => c
  | some d, o => c.set d o

/-- `r` in the pool `c` and `r'` in the pool `c'` are the same outcome -/
def Same {ff : Gf2e} (c c' : Pool) (d : Option Nat) (r r' : Option (Pool × Out (Elem ff))) : Prop :=
  ∃ g : Option (Option Obj × Out (Elem ff)), r = g.map (fun x => (wr c d x.1, x.2)) ∧ r' = g.map (fun x => (wr c' d x.1, x.2))

theorem same_none {ff : Gf2e} {c c' : Pool} {d : Option Nat} : Same (ff := ff) c c' d none none := ⟨none, rfl, rfl⟩
theorem same_put {ff : Gf2e} {c c' : Pool} {d : Nat} (o : Obj) : Same (ff := ff) c c' (some d) (put c d o) (put c' d o) := ⟨some (some o, .unit), rfl, rfl⟩
theorem same_putP {ff : Gf2e} {c c' : Pool} {d : Nat} (o : Option Mzed) : Same (ff := ff) c c' (some d) (putP c d o) (putP c' d o) :=
  ⟨o.map fun A => (some (.packed A), .unit), by cases o <;> rfl, by cases o <;> rfl⟩
theorem same_putS {ff : Gf2e} {c c' : Pool} {d : Nat} (o : Option Slice) : Same (ff := ff) c c' (some d) (putS c d o) (putS c' d o) :=
  ⟨o.map fun A => (some (.sliced A), .unit), by cases o <;> rfl, by cases o <;> rfl⟩
theorem same_free {ff : Gf2e} {c c' : Pool} {d : Nat} (o : Out (Elem ff)) : Same (ff := ff) c c' (some d) (some (c.set d none, o)) (some (c'.set d none, o)) :=
  ⟨some (none, o), rfl, rfl⟩
theorem same_num {ff : Gf2e} {c c' : Pool} {d : Nat} {α : Type} (f : α → Obj) (o : Option (α × Nat)) :
    Same (ff := ff) c c' (some d) (o.map fun p => (c.set d (some (f p.1)), .num p.2)) (o.map fun p => (c'.set d (some (f p.1)), .num p.2)) :=
  ⟨o.map fun A => (some (f A.1), .num A.2), by cases o <;> rfl, by cases o <;> rfl⟩
theorem same_out {ff : Gf2e} {c c' : Pool} (o : Out (Elem ff)) : Same (ff := ff) c c' none (some (c, o)) (some (c', o)) :=
  ⟨some (none, o), rfl, rfl⟩
theorem same_elem {ff : Gf2e} {c c' : Pool} (o : Option (Elem ff)) :
    Same (ff := ff) c c' none (o.map fun x => (c, .elem x)) (o.map fun x => (c', .elem x)) :=
  ⟨o.map fun x => (none, .elem x), by cases o <;> rfl, by cases o <;> rfl⟩

macro "same1" : tactic => `(tactic| first | exact same_none | exact same_put _ | exact same_putP _ | exact same_putS _ | exact same_free _ | exact same_out _ | exact same_elem _ | exact same_num .packed _ | exact same_num .sliced _)

theorem call_local (lib : Lib) {c c' : Pool} (op : Op (Elem lib.ff)) (hd : ∀ d ∈ op.dest, c' d = c d) (hs : ∀ a ∈ op.sources, c' a = c a) :
    Same c c' op.dest (call lib c op) (call lib c' op) := by
  cases op
  case init sl d m n => cases sl <;> exact same_put _
  case free d => exact same_free _
  case readElem s i j =>
    simp only [call, hs s (by simp [Op.sources])]
    rcases c s with _ | (_ | _) <;> same1
  case writeElem d i j x =>
    simp only [call, hd d (by simp [Op.dest])]
    rcases c d with _ | (_ | _) <;> same1
  case addElem d i j x =>
    simp only [call, hd d (by simp [Op.dest])]
    rcases c d with _ | (_ | _) <;> same1
  case setUi d x =>
    simp only [call, hd d (by simp [Op.dest])]
    rcases c d with _ | (_ | _) <;> same1
  case rowSwap d i j =>
    simp only [call, hd d (by simp [Op.dest])]
    rcases c d with _ | (_ | _) <;> same1
  case colSwap d i j =>
    simp only [call, hd d (by simp [Op.dest])]
    rcases c d with _ | (_ | _) <;> same1
  case rescaleRow d i k x =>
    simp only [call, hd d (by simp [Op.dest])]
    rcases c d with _ | (_ | _) <;> same1
  case addMultipleOfRow d i s j x k =>
    simp only [call, hd d (by simp [Op.dest]), hs s (by simp [Op.sources])]
    rcases c d with _ | (_ | _) <;> rcases c s with _ | (_ | _) <;> same1
  case copy d s =>
    simp only [call, hd d (by simp [Op.dest]), hs s (by simp [Op.sources])]
    rcases c d with _ | (_ | _) <;> rcases c s with _ | (_ | _) <;> same1
  case convert d s =>
    simp only [call, hs s (by simp [Op.sources])]
    rcases c s with _ | (_ | _) <;> same1
  case add d a b =>
    simp only [call, hd d (by simp [Op.dest]), hs a (by simp [Op.sources]), hs b (by simp [Op.sources])]
    rcases c d with _ | (_ | _) <;> rcases c a with _ | (_ | _) <;> rcases c b with _ | (_ | _) <;> same1
  case mul d a b =>
    simp only [call, hd d (by simp [Op.dest]), hs a (by simp [Op.sources]), hs b (by simp [Op.sources])]
    rcases c d with _ | (_ | _) <;> rcases c a with _ | (_ | _) <;> rcases c b with _ | (_ | _) <;> same1
  case addmul d a b =>
    simp only [call, hd d (by simp [Op.dest]), hs a (by simp [Op.sources]), hs b (by simp [Op.sources])]
    rcases c d with _ | (_ | _) <;> rcases c a with _ | (_ | _) <;> rcases c b with _ | (_ | _) <;> same1
  case mulScalar d x s =>
    simp only [call, hd d (by simp [Op.dest]), hs s (by simp [Op.sources])]
    rcases c d with _ | (_ | _) <;> rcases c s with _ | (_ | _) <;> same1
  case concat d a b =>
    simp only [call, hs a (by simp [Op.sources]), hs b (by simp [Op.sources])]
    rcases c a with _ | (_ | _) <;> rcases c b with _ | (_ | _) <;> same1
  case stack d a b =>
    simp only [call, hs a (by simp [Op.sources]), hs b (by simp [Op.sources])]
    rcases c a with _ | (_ | _) <;> rcases c b with _ | (_ | _) <;> same1
  case submatrix d s lr lc hr hc =>
    simp only [call, hs s (by simp [Op.sources])]
    rcases c s with _ | (_ | _) <;> same1
  case echelonize d full =>
    simp only [call, hd d (by simp [Op.dest])]
    rcases c d with _ | (_ | _) <;> same1
  case invert d s =>
    simp only [call, hs s (by simp [Op.sources])]
    rcases c s with _ | (_ | _) <;> same1
  case trsmLower a d =>
    simp only [call, hd d (by simp [Op.dest]), hs a (by simp [Op.sources])]
    rcases c a with _ | (_ | _) <;> rcases c d with _ | (_ | _) <;> same1
  case trsmUpper a d =>
    simp only [call, hd d (by simp [Op.dest]), hs a (by simp [Op.sources])]
    rcases c a with _ | (_ | _) <;> rcases c d with _ | (_ | _) <;> same1
  case isZero s =>
    simp only [call, hs s (by simp [Op.sources])]
    rcases c s with _ | (_ | _) <;> same1
  case equal a b =>
    simp only [call, hs a (by simp [Op.sources]), hs b (by simp [Op.sources])]
    rcases c a with _ | (_ | _) <;> rcases c b with _ | (_ | _) <;> same1

theorem callBy_local (pl : PLib) {c c' : Pool} (alg : Alg) (op : Op (Elem pl.ff)) (hd : ∀ d ∈ op.dest, c' d = c d) (hs : ∀ a ∈ op.sources, c' a = c a) :
    Same c c' op.dest (callBy pl c alg op) (callBy pl c' alg op) := by
  cases op
  case mul d a b =>
    simp only [callBy, hd d (by simp [Op.dest]), hs a (by simp [Op.sources]), hs b (by simp [Op.sources])]
    rcases c d with _ | (_ | _) <;> rcases c a with _ | (_ | _) <;> rcases c b with _ | (_ | _) <;> same1
  case addmul d a b =>
    simp only [callBy, hd d (by simp [Op.dest]), hs a (by simp [Op.sources]), hs b (by simp [Op.sources])]
    rcases c d with _ | (_ | _) <;> rcases c a with _ | (_ | _) <;> rcases c b with _ | (_ | _) <;> same1
  case echelonize d full =>
    simp only [callBy, hd d (by simp [Op.dest])]
    rcases c d with _ | (_ | _) <;> same1
  case trsmLower a d =>
    simp only [callBy, hd d (by simp [Op.dest]), hs a (by simp [Op.sources])]
    rcases c a with _ | (_ | _) <;> rcases c d with _ | (_ | _) <;> same1
  case trsmUpper a d =>
    simp only [callBy, hd d (by simp [Op.dest]), hs a (by simp [Op.sources])]
    rcases c a with _ | (_ | _) <;> rcases c d with _ | (_ | _) <;> same1
  all_goals exact same_none

/-- what locality of a call means: `r`, `r'` are the outcomes of `op` in two states `c`, `c'` that agree on the variables used -/
def LocalStep {ff : Gf2e} (op : POp (Elem ff)) (c c' : PPool) (r r' : Option (PPool × Out (Elem ff))) : Prop :=
  match r, r' with
  | none, none => True
  | some (d, o), some (d', o') => o' = o ∧ (∀ v ∈ op.writes, d'.get v = d.get v) ∧ ∀ v, v ∉ op.writes → d.get v = c.get v ∧ d'.get v = c'.get v
  | _, _ => False

theorem get_mats (c : PPool) (m : Pool) (v : Slot) : ({ c with mats := m } : PPool).get v = match v with | .mat k => .obj (m k) | .perm k => .mzp (c.perms k) := by
  cases v <;> rfl

theorem mem_writes_mat {K : Type} {op : POp K} {k : Nat} : Slot.mat k ∈ op.writes ↔ op.dest = some k := by
  unfold POp.writes
  cases h : op.dest <;> simp [eq_comm]

theorem mem_writes_perm {K : Type} {op : POp K} {k : Nat} : Slot.perm k ∈ op.writes ↔ k ∈ op.permDests := by
  unfold POp.writes
  cases h : op.dest <;> simp [eq_comm]

/-- calls that change a matrix only -/
theorem local_of_same {ff : Gf2e} {op : POp (Elem ff)} {c c' : PPool} {r r' : Option (Pool × Out (Elem ff))} (hp : op.permDests = [])
    (h : Same c.mats c'.mats op.dest r r') :
    LocalStep op c c' (r.map fun x => ({ c with mats := x.1 }, x.2)) (r'.map fun x => ({ c' with mats := x.1 }, x.2)) := by
  obtain ⟨g, rfl, rfl⟩ := h
  rcases g with _ | ⟨o, out⟩
  · exact trivial
  refine ⟨rfl, ?_, ?_⟩
  · rintro (k | k) hv
    · rw [mem_writes_mat] at hv
      show Content.obj (wr _ op.dest o k) = Content.obj (wr _ op.dest o k)
      rw [hv]
      simp [wr, Pool.set]
    · rw [mem_writes_perm, hp] at hv
      cases hv
  · rintro (k | k) hv
    · rw [mem_writes_mat] at hv
      have : ∀ c : Pool, wr c op.dest o k = c k := by
        intro c
        cases h : op.dest with
        | none => rfl
        | some d => exact if_neg (fun e => hv (by rw [h, e]))
      exact ⟨congrArg Content.obj (this _), congrArg Content.obj (this _)⟩
    · exact ⟨rfl, rfl⟩

/-- calls that change permutations too -/
theorem local_ple {ff : Gf2e} {op : POp (Elem ff)} {c c' : PPool} {d p q : Nat} (hd : op.dest = some d) (hp : op.permDests = [p, q])
    (g : Option (Obj × Mzp × Mzp × Nat)) : LocalStep op c c' (g.map (putPle c d p q)) (g.map (putPle c' d p q)) := by
  rcases g with _ | ⟨o, P, Q, r⟩
  · exact trivial
  refine ⟨rfl, ?_, ?_⟩
  · rintro (k | k) hv
    · rw [mem_writes_mat, hd] at hv
      cases hv
      show Content.obj (Pool.set _ _ _ _) = Content.obj (Pool.set _ _ _ _)
      simp [Pool.set]
    · rw [mem_writes_perm, hp] at hv
      show Content.mzp (if k = q then _ else if k = p then _ else _) = Content.mzp (if k = q then _ else if k = p then _ else _)
      simp only [List.mem_cons, List.not_mem_nil, or_false] at hv
      rcases hv with rfl | rfl
      · simp
      · simp
  · rintro (k | k) hv
    · rw [mem_writes_mat, hd] at hv
      have : ∀ c : PPool, (putPle (ff := ff) c d p q (o, P, Q, r)).1.mats k = c.mats k := fun c => if_neg (fun e => hv (by rw [e]))
      exact ⟨congrArg Content.obj (this _), congrArg Content.obj (this _)⟩
    · rw [mem_writes_perm, hp] at hv
      simp only [List.mem_cons, List.not_mem_nil, or_false, not_or] at hv
      have : ∀ c : PPool, (putPle (ff := ff) c d p q (o, P, Q, r)).1.perms k = c.perms k := by
        intro c
        show (if k = q then _ else if k = p then _ else _) = _
        rw [if_neg hv.2, if_neg hv.1]
      exact ⟨congrArg Content.mzp (this _), congrArg Content.mzp (this _)⟩

/-- the permutation variable `p` changes -/
theorem local_perm {ff : Gf2e} {op : POp (Elem ff)} {c c' : PPool} {p : Nat} (hd : op.dest = none) (hp : op.permDests = [p]) (x : Option Mzp) (out : Out (Elem ff)) :
    LocalStep op c c' (some (c.setPerm p x, out)) (some (c'.setPerm p x, out)) := by
  refine ⟨rfl, ?_, ?_⟩
  · rintro (k | k) hv
    · rw [mem_writes_mat, hd] at hv
      cases hv
    · rw [mem_writes_perm, hp] at hv
      simp only [List.mem_singleton] at hv
      show Content.mzp (if k = p then _ else _) = Content.mzp (if k = p then _ else _)
      rw [if_pos hv, if_pos hv]
  · rintro (k | k) hv
    · exact ⟨rfl, rfl⟩
    · rw [mem_writes_perm, hp] at hv
      simp only [List.mem_singleton] at hv
      exact ⟨congrArg Content.mzp (if_neg hv), congrArg Content.mzp (if_neg hv)⟩

/-- a matrix variable becomes `o` -/
theorem local_set {ff : Gf2e} {op : POp (Elem ff)} {c c' : PPool} {d : Nat} (hd : op.dest = some d) (hp : op.permDests = []) (o : Option Obj) (out : Out (Elem ff)) :
    LocalStep op c c' (some ({ c with mats := c.mats.set d o }, out)) (some ({ c' with mats := c'.mats.set d o }, out)) := by
  have := local_of_same (op := op) (c := c) (c' := c') (r := some (c.mats.set d o, out)) (r' := some (c'.mats.set d o, out)) hp
    ⟨some (o, out), by rw [hd]; rfl, by rw [hd]; rfl⟩
  exact this

theorem local_apply {ff : Gf2e} {op : POp (Elem ff)} {c c' : PPool} {d p : Nat} (hd : op.dest = some d) (hp : op.permDests = [])
    (h1 : c'.mats d = c.mats d) (h2 : c'.perms p = c.perms p) (f : Mzed → Mzp → Mzed) (g : Slice → Mzp → Slice) :
    LocalStep op c c' (applyBy c d p f g) (applyBy c' d p f g) := by
  unfold applyBy
  rw [h1, h2]
  rcases c.mats d with _ | (_ | _) <;> rcases c.perms p with _ | _ <;> first | exact trivial | exact local_set hd hp _ _

/-- **locality**: what a call does depends on the variables it uses only, and it changes only those it writes -/
theorem pcall_local (pl : PLib) {c c' : PPool} (op : POp (Elem pl.ff)) (h : ∀ v ∈ op.uses, c'.get v = c.get v) :
    LocalStep op c c' (pcall pl c op) (pcall pl c' op) := by
  have hd : ∀ d ∈ op.dest, c'.mats d = c.mats d := fun d hd =>
    Content.obj.inj (h (.mat d) (by simp only [POp.uses, List.mem_append]; exact Or.inl (Or.inl (mem_writes_mat.2 hd))))
  have hs : ∀ a ∈ op.sources, c'.mats a = c.mats a := fun a ha =>
    Content.obj.inj (h (.mat a) (by simp only [POp.uses, List.mem_append, List.mem_map]; exact Or.inl (Or.inr ⟨a, ha, rfl⟩)))
  have hpd : ∀ p ∈ op.permDests, c'.perms p = c.perms p := fun p hp =>
    Content.mzp.inj (h (.perm p) (by simp only [POp.uses, List.mem_append]; exact Or.inl (Or.inl (mem_writes_perm.2 hp))))
  have hps : ∀ p ∈ op.permSources, c'.perms p = c.perms p := fun p hp =>
    Content.mzp.inj (h (.perm p) (by simp only [POp.uses, List.mem_append, List.mem_map]; exact Or.inr ⟨p, hp, rfl⟩))
  cases op
  case base op => exact local_of_same rfl (call_local pl.toLib op hd hs)
  case named alg op => exact local_of_same rfl (callBy_local pl alg op hd hs)
  case permInit p n => exact local_perm rfl rfl _ _
  case permFree p => exact local_perm rfl rfl _ _
  case applyLeft d p => exact local_apply rfl rfl (hd d rfl) (hps p (by simp [POp.permSources])) _ _
  case applyLeftTrans d p => exact local_apply rfl rfl (hd d rfl) (hps p (by simp [POp.permSources])) _ _
  case applyRight d p => exact local_apply rfl rfl (hd d rfl) (hps p (by simp [POp.permSources])) _ _
  case applyRightTrans d p => exact local_apply rfl rfl (hd d rfl) (hps p (by simp [POp.permSources])) _ _
  case decompose d p q =>
    simp only [pcall, hd d rfl, hpd p (by simp [POp.permDests]), hpd q (by simp [POp.permDests])]
    rcases c.mats d with _ | (_ | _) <;> rcases c.perms p with _ | P <;> rcases c.perms q with _ | Q <;> try exact trivial
    · have := local_ple (ff := pl.ff) (op := .decompose d p q) (c := c) (c' := c') rfl rfl ((mzedPleTop? pl.pleEnv.cb pl.pleEnv.compress pl.l2 ‹_› P.val Q.val).map (mzpOf P Q))
      rw [Option.map_map, Option.map_map] at this; exact this
    · have := local_ple (ff := pl.ff) (op := .decompose d p q) (c := c) (c' := c') rfl rfl ((mzdSlicePleTop? pl.pleEnv.cb pl.pleEnv.compress pl.l2 ‹_› P Q).map (fun r => (.sliced r.1, r.2)))
      rw [Option.map_map, Option.map_map] at this; exact this
  case decomposeBy alg d p q =>
    simp only [pcall, hd d rfl, hpd p (by simp [POp.permDests]), hpd q (by simp [POp.permDests])]
    rcases c.mats d with _ | (_ | _) <;> rcases c.perms p with _ | P <;> rcases c.perms q with _ | Q <;> try exact trivial
    cases alg <;> first | exact trivial | exact local_ple rfl rfl (some _)
  case pluq d p q =>
    simp only [pcall, hd d rfl, hpd p (by simp [POp.permDests]), hpd q (by simp [POp.permDests])]
    rcases c.mats d with _ | (_ | _) <;> rcases c.perms p with _ | P <;> rcases c.perms q with _ | Q <;> try exact trivial
    have := local_ple (ff := pl.ff) (op := .pluq d p q) (c := c) (c' := c') rfl rfl ((mzdSlicePluqTop? pl.pleEnv.cb pl.pleEnv.compress pl.l2 ‹_› P Q).map (fun r => (.sliced r.1, r.2)))
    rw [Option.map_map, Option.map_map] at this; exact this
  case rowAdd d i j =>
    simp only [pcall, hd d rfl]
    rcases c.mats d with _ | (_ | _) <;> first | exact trivial | exact local_set rfl rfl _ _
  case copyRow d i a j =>
    simp only [pcall, hd d rfl, hs a (by simp [POp.sources])]
    rcases c.mats d with _ | (_ | _) <;> rcases c.mats a with _ | (_ | _) <;> first | exact trivial | exact local_set rfl rfl _ _
  case firstZeroRow a =>
    simp only [pcall, hs a (by simp [POp.sources])]
    rcases c.mats a with _ | (_ | _) <;> first | exact trivial | exact ⟨rfl, fun v hv => absurd hv (by simp [POp.writes, POp.dest, POp.permDests]), fun v _ => ⟨rfl, rfl⟩⟩
  case addmulScalar d x a =>
    simp only [pcall, hd d rfl, hs a (by simp [POp.sources])]
    rcases c.mats d with _ | (_ | D) <;> rcases c.mats a with _ | (_ | A) <;> try exact trivial
    dsimp only
    rcases mzdSliceAddmulScalar? D x.1 A with _ | R
    · exact trivial
    · exact local_set rfl rfl _ _

/-! ### schedules -/

theorem Schedule.of_cons_self {K : Type} (t : Nat) (op : POp K) (zs : Schedule K) : Schedule.of ((t, op) :: zs) t = op :: Schedule.of zs t := by
  simp [Schedule.of]

theorem Schedule.of_cons_ne {K : Type} {t u : Nat} (h : t ≠ u) (op : POp K) (zs : Schedule K) : Schedule.of ((t, op) :: zs) u = Schedule.of zs u := by
  simp [Schedule.of, h]

theorem resultsOf_cons_self {K α : Type} (t : Nat) (op : POp K) (zs : Schedule K) (o : α) (outs : List α) :
    resultsOf ((t, op) :: zs) (o :: outs) t = o :: resultsOf zs outs t := by simp [resultsOf]

theorem resultsOf_cons_ne {K α : Type} {t u : Nat} (h : t ≠ u) (op : POp K) (zs : Schedule K) (o : α) (outs : List α) :
    resultsOf ((t, op) :: zs) (o :: outs) u = resultsOf zs outs u := by simp [resultsOf, h]

theorem prun_cons {pl : PLib} {c d : PPool} {op : POp (Elem pl.ff)} {o : Out (Elem pl.ff)} (h : pcall pl c op = some (d, o)) (ops : List (POp (Elem pl.ff))) :
    prunProgram pl c (op :: ops) = (prunProgram pl d ops).map fun q => (q.1, o :: q.2) := by
  simp [prunProgram, h]

/-- the induction: `e t` is the state of thread `t` running alone, `U t` the variables it shares with the joint run -/
theorem schedule_aux (pl : PLib) (U : Nat → Slot → Prop) : ∀ (zs : Schedule (Elem pl.ff)) (c : PPool) (e : Nat → PPool),
    (∀ x ∈ zs, (∀ v ∈ x.2.uses, U x.1 v) ∧ ∀ u, u ≠ x.1 → ∀ v ∈ x.2.writes, ¬ U u v) →
    (∀ t v, U t v → c.get v = (e t).get v) → (∀ t, (prunProgram pl (e t) (Schedule.of zs t)).isSome) →
    ∃ c' outs, prunProgram pl c (zs.map (·.2)) = some (c', outs) ∧
      ∀ t, ∃ ct, prunProgram pl (e t) (Schedule.of zs t) = some (ct, resultsOf zs outs t) ∧ ∀ v, U t v → c'.get v = ct.get v := by
  intro zs
  induction zs with
  | nil =>
    intro c e _ hc _
    exact ⟨c, [], rfl, fun t => ⟨e t, rfl, hc t⟩⟩
  | cons z zs ih =>
    obtain ⟨t, op⟩ := z
    intro c e hU hc hs
    obtain ⟨hu, hw⟩ := hU (t, op) (by simp)
    have hloc := pcall_local pl (c := e t) (c' := c) op (fun v hv => hc t v (hu v hv))
    have ht := hs t
    rw [Schedule.of_cons_self] at ht
    rcases h1 : pcall pl (e t) op with _ | ⟨d, o⟩
    · simp [prunProgram, h1] at ht
    rw [h1] at hloc
    rcases h2 : pcall pl c op with _ | ⟨d', o'⟩
    · rw [h2] at hloc; exact hloc.elim
    rw [h2] at hloc
    obtain ⟨rfl, l2, l3⟩ := hloc
    have ht' := ht
    rw [prun_cons h1, Option.isSome_map] at ht'
    obtain ⟨c', outs, r1, r2⟩ := ih d' (fun u => if u = t then d else e u) (fun x hx => hU x (List.mem_cons_of_mem _ hx)) (by
      intro u v huv
      by_cases hut : u = t
      · simp only [hut, if_true]
        subst hut
        by_cases hv : v ∈ op.writes
        · exact l2 v hv
        · rw [(l3 v hv).1, (l3 v hv).2]; exact hc u v huv
      · simp only [hut, if_false]
        have hv : v ∉ op.writes := fun hv => hw u hut v hv huv
        rw [(l3 v hv).2]; exact hc u v huv) (by
      intro u
      by_cases hut : u = t
      · simp only [hut, if_true]; exact ht'
      · simp only [hut, if_false]
        have := hs u
        rwa [Schedule.of_cons_ne (Ne.symm hut)] at this)
    refine ⟨c', o' :: outs, ?_, fun u => ?_⟩
    · show prunProgram pl c (op :: zs.map (·.2)) = _
      rw [prun_cons h2, r1]; rfl
    · obtain ⟨ct, q1, q2⟩ := r2 u
      refine ⟨ct, ?_, q2⟩
      by_cases hut : u = t
      · subst hut
        simp only [if_true] at q1
        rw [Schedule.of_cons_self, prun_cons h1, q1, resultsOf_cons_self]; rfl
      · simp only [hut, if_false] at q1
        rw [Schedule.of_cons_ne (Ne.symm hut), resultsOf_cons_ne (Ne.symm hut), q1]

/-- **C69** If every thread, running its calls alone, succeeds, then every schedule of calls that do not race succeeds, every thread gets the results it gets
alone, and every variable that no other thread writes holds what it holds after the thread has run alone (for a `t` without calls: what it held before). -/
theorem C69_schedule (pl : PLib) (zs : Schedule (Elem pl.ff)) (hr : RaceFree zs) (c : PPool)
    (hs : ∀ t, (prunProgram pl c (Schedule.of zs t)).isSome) :
    ∃ c' outs, prunProgram pl c (zs.map (·.2)) = some (c', outs) ∧
      ∀ t, ∃ ct, prunProgram pl c (Schedule.of zs t) = some (ct, resultsOf zs outs t) ∧
        ∀ v, (∀ x ∈ zs, x.1 ≠ t → v ∉ x.2.writes) → c'.get v = ct.get v := by
  refine schedule_aux pl (fun t v => ∀ x ∈ zs, x.1 ≠ t → v ∉ x.2.writes) zs c (fun _ => c) (fun x hx => ⟨fun v hv y hy hyx hw => ?_, fun u hu v hv h => ?_⟩)
    (fun _ _ _ => rfl) hs
  · exact hr y hy x hx hyx v hw hv
  · exact h x hx (Ne.symm hu) hv

theorem converse_aux (pl : PLib) (U : Nat → Slot → Prop) : ∀ (zs : Schedule (Elem pl.ff)) (c : PPool) (e : Nat → PPool),
    (∀ x ∈ zs, (∀ v ∈ x.2.uses, U x.1 v) ∧ ∀ u, u ≠ x.1 → ∀ v ∈ x.2.writes, ¬ U u v) →
    (∀ t v, U t v → c.get v = (e t).get v) → (prunProgram pl c (zs.map (·.2))).isSome → ∀ t, (prunProgram pl (e t) (Schedule.of zs t)).isSome := by
  intro zs
  induction zs with
  | nil => intro c e _ _ _ t; rfl
  | cons z zs ih =>
    obtain ⟨t, op⟩ := z
    intro c e hU hc hs
    obtain ⟨hu, hw⟩ := hU (t, op) (by simp)
    have hloc := pcall_local pl (c := e t) (c' := c) op (fun v hv => hc t v (hu v hv))
    have hs : (prunProgram pl c (op :: zs.map (·.2))).isSome := hs
    rcases h2 : pcall pl c op with _ | ⟨d', o'⟩
    · simp [prunProgram, h2] at hs
    rw [h2] at hloc
    rcases h1 : pcall pl (e t) op with _ | ⟨d, o⟩
    · rw [h1] at hloc; exact hloc.elim
    rw [h1] at hloc
    obtain ⟨rfl, l2, l3⟩ := hloc
    rw [prun_cons h2, Option.isSome_map] at hs
    have := ih d' (fun u => if u = t then d else e u) (fun x hx => hU x (List.mem_cons_of_mem _ hx)) (by
      intro u v huv
      by_cases hut : u = t
      · simp only [hut, if_true]
        subst hut
        by_cases hv : v ∈ op.writes
        · exact l2 v hv
        · rw [(l3 v hv).1, (l3 v hv).2]; exact hc u v huv
      · simp only [hut, if_false]
        have hv : v ∉ op.writes := fun hv => hw u hut v hv huv
        rw [(l3 v hv).2]; exact hc u v huv) hs
    intro u
    have hu := this u
    by_cases hut : u = t
    · subst hut
      simp only [if_true] at hu
      rw [Schedule.of_cons_self, prun_cons h1, Option.isSome_map]; exact hu
    · simp only [hut, if_false] at hu
      rw [Schedule.of_cons_ne (Ne.symm hut)]; exact hu

/-- **C69** a schedule fails exactly if one of its threads fails when it runs alone -/
theorem C69_fails (pl : PLib) (zs : Schedule (Elem pl.ff)) (hr : RaceFree zs) (c : PPool) :
    prunProgram pl c (zs.map (·.2)) = none ↔ ∃ t, prunProgram pl c (Schedule.of zs t) = none := by
  constructor
  · intro h
    by_contra hne
    obtain ⟨c', outs, e, -⟩ := C69_schedule pl zs hr c fun t => by
      rw [Option.isSome_iff_ne_none]; exact fun h => hne ⟨t, h⟩
    rw [h] at e; cases e
  · rintro ⟨t, ht⟩
    by_contra hne
    have := converse_aux pl (fun t v => ∀ x ∈ zs, x.1 ≠ t → v ∉ x.2.writes) zs c (fun _ => c) (fun x hx => ⟨fun v hv y hy hyx hw =>
      hr y hy x hx hyx v hw hv, fun u hu v hv h => h x hx (Ne.symm hu) hv⟩) (fun _ _ _ => rfl) (by rw [Option.isSome_iff_ne_none]; exact hne) t
    rw [ht] at this; cases this

theorem pool_ext {c c' : PPool} (h : ∀ v, c.get v = c'.get v) : c = c' := by
  obtain ⟨m, p⟩ := c
  obtain ⟨m', p'⟩ := c'
  have h1 : m = m' := funext fun k => Content.obj.inj (h (.mat k))
  have h2 : p = p' := funext fun k => Content.mzp.inj (h (.perm k))
  rw [h1, h2]

theorem mem_of {K : Type} {zs : Schedule K} {t : Nat} {op : POp K} : op ∈ Schedule.of zs t ↔ (t, op) ∈ zs := by
  simp only [Schedule.of, List.mem_map, List.mem_filter, decide_eq_true_eq]
  constructor
  · rintro ⟨⟨u, o⟩, ⟨h1, rfl⟩, rfl⟩; exact h1
  · intro h; exact ⟨(t, op), ⟨h, rfl⟩, rfl⟩

/-- **C69** the order in which the calls of different threads happen does not matter: all the memory is the same in the end, and every thread gets the
same results -/
theorem C69_any_order (pl : PLib) (zs zs' : Schedule (Elem pl.ff)) (hsame : ∀ t, Schedule.of zs t = Schedule.of zs' t) (hr : RaceFree zs) (c c1 : PPool)
    (outs : List (Out (Elem pl.ff))) (h : prunProgram pl c (zs.map (·.2)) = some (c1, outs)) :
    ∃ outs', prunProgram pl c (zs'.map (·.2)) = some (c1, outs') ∧ ∀ t, resultsOf zs' outs' t = resultsOf zs outs t := by
  have hmem : ∀ x, x ∈ zs ↔ x ∈ zs' := by
    rintro ⟨t, op⟩
    rw [← mem_of, ← mem_of, hsame]
  have hr' : RaceFree zs' := fun x hx y hy => hr x ((hmem x).2 hx) y ((hmem y).2 hy)
  have hs : ∀ t, (prunProgram pl c (Schedule.of zs t)).isSome := by
    intro t
    rw [Option.isSome_iff_ne_none]
    intro ht
    rw [(C69_fails pl zs hr c).2 ⟨t, ht⟩] at h; cases h
  obtain ⟨c2, o2, e2, k2⟩ := C69_schedule pl zs hr c hs
  obtain ⟨c3, o3, e3, k3⟩ := C69_schedule pl zs' hr' c (fun t => by rw [← hsame]; exact hs t)
  rw [h] at e2
  cases e2
  have hres : ∀ t, ∃ ct, prunProgram pl c (Schedule.of zs t) = some (ct, resultsOf zs outs t) ∧ resultsOf zs' o3 t = resultsOf zs outs t ∧
      ∀ v, (∀ x ∈ zs, x.1 ≠ t → v ∉ x.2.writes) → c1.get v = ct.get v ∧ c3.get v = ct.get v := by
    intro t
    obtain ⟨ct, a1, a2⟩ := k2 t
    obtain ⟨ct', b1, b2⟩ := k3 t
    rw [← hsame, a1] at b1
    obtain ⟨rfl, b3⟩ := Prod.mk.inj (Option.some.inj b1)
    exact ⟨ct, a1, b3.symm, fun v hv => ⟨a2 v hv, b2 v fun x hx => hv x ((hmem x).2 hx)⟩⟩
  have hc : c3 = c1 := by
    refine pool_ext fun v => ?_
    by_cases hv : ∃ x ∈ zs, v ∈ x.2.writes
    · obtain ⟨x, hx, hxv⟩ := hv
      obtain ⟨ct, -, -, q⟩ := hres x.1
      have := q v fun y hy hyx hyv => hr y hy x hx hyx v hyv (by simp only [POp.uses, List.mem_append]; exact Or.inl (Or.inl hxv))
      rw [this.1, this.2]
    · obtain ⟨ct, -, -, q⟩ := hres 0
      have := q v fun y hy _ hyv => hv ⟨y, hy, hyv⟩
      rw [this.1, this.2]
  exact ⟨o3, by rw [e3, hc], fun t => (hres t).choose_spec.2.1⟩

/-- **C69** with C65: if the calls of every thread are permitted, thread by thread, then no schedule dies, and every thread gets what the specification says
about its own calls, whatever the other threads do -/
theorem C69_safe {pl : PLib} [IsField pl.ff] (hlib : PLibOk pl) (zs : Schedule (Elem pl.ff)) (hr : RaceFree zs) {c : PPool} {s : PState (Elem pl.ff)} (h : PStores pl c s)
    (hs : ∀ t, PSafe (badScalar pl.toLib) (bitsOf pl) s (Schedule.of zs t)) :
    ∃ c' outs, prunProgram pl c (zs.map (·.2)) = some (c', outs) ∧
      ∀ t, ∃ ct st, PRuns (badScalar pl.toLib) (bitsOf pl) s (Schedule.of zs t) (resultsOf zs outs t) st ∧ PStores pl ct st ∧
        ∀ v, (∀ x ∈ zs, x.1 ≠ t → v ∉ x.2.writes) → c'.get v = ct.get v := by
  obtain ⟨c', outs, e, k⟩ := C69_schedule pl zs hr c fun t => by
    obtain ⟨c1, o1, s1, e1, -, -⟩ := C65_history hlib _ h (hs t)
    rw [e1]; rfl
  refine ⟨c', outs, e, fun t => ?_⟩
  obtain ⟨ct, a1, a2⟩ := k t
  obtain ⟨c1, o1, s1, e1, h1, h2⟩ := C65_history hlib _ h (hs t)
  rw [a1] at e1
  obtain ⟨rfl, rfl⟩ := Prod.mk.inj (Option.some.inj e1)
  exact ⟨ct, s1, h1, h2, a2⟩

/-- an instance: three threads over GF(2^8) that share the matrix 0; thread 1 squares it, thread 2 works on a sliced matrix, thread 3 reads the shared matrix -/
example : ∃ ff, ∃ _ : IsField ff, ff.degree = 8 ∧ PLibOk (stdPLib ff) ∧ ∃ (c : PPool) (s : PState (Elem ff)) (zs : Schedule (Elem ff)),
    zs = [(1, .base (.init false 1 2 2)), (2, .base (.init true 2 3 3)), (1, .base (.mul 1 0 0)), (2, .base (.setUi 2 1)), (3, .base (.readElem 0 0 1))] ∧
    PStores (stdPLib ff) c s ∧ s.mat 0 = some ⟨false, 2, 2, !![1, 1; 0, 1]⟩ ∧ RaceFree zs ∧
    ∀ t, PSafe (badScalar (stdPLib ff).toLib) (bitsOf (stdPLib ff)) s (Schedule.of zs t) := by
  obtain ⟨ff, h, hd⟩ := exists_aes
  refine ⟨ff, h, hd, stdPLib_ok ff, ⟨fun k => if k = 0 then some (.packed (Mat.pack (ff := ff) ⟨2, 2, 0, fun i j => if i = 1 ∧ j = 0 then 0 else 1⟩)) else none, fun _ => none⟩,
    ⟨fun k => if k = 0 then some ⟨false, 2, 2, !![1, 1; 0, 1]⟩ else none, fun _ => none⟩, _, rfl, ⟨fun k => ?_, fun _ => trivial⟩, rfl, ?_, fun t => ?_⟩
  · by_cases hk : k = 0
    · subst hk
      refine (⟨rfl, rfl, rfl, _, pack_rep (ff := ff) _, fun i j => ?_⟩ : HoldsP (stdLib ff) (Mat.pack (ff := ff) ⟨2, 2, 0, fun i j => if i = 1 ∧ j = 0 then 0 else 1⟩) (!![1, 1; 0, 1] : Matrix (Fin 2) (Fin 2) (Elem ff)))
      fin_cases i <;> fin_cases j <;> rfl
    · simp only [hk, if_false]
  · intro x hx y hy hxy v hv
    simp only [List.mem_cons, List.not_mem_nil, or_false] at hx hy
    rcases hx with rfl | rfl | rfl | rfl | rfl <;> rcases hy with rfl | rfl | rfl | rfl | rfl <;>
      simp_all [POp.uses, POp.writes, POp.dest, POp.sources, POp.permDests, POp.permSources, Op.dest, Op.sources]
  · by_cases h1 : t = 1
    · subst h1
      show PSafe _ _ _ [.base (.init false 1 2 2), .base (.mul 1 0 0)]
      refine ⟨⟨_, _, .base (.init false 1 2 2 rfl)⟩, fun out s' e => ?_⟩
      cases e with
      | base e =>
      cases e with
      | init => exact ⟨⟨_, _, .base (.mul (X := !![1, 1; 0, 1]) (Y := !![1, 1; 0, 1]) (t := false) rfl rfl rfl (by decide) (by decide) (by decide))⟩, fun _ _ _ => trivial⟩
    by_cases h2 : t = 2
    · subst h2
      show PSafe _ _ _ [.base (.init true 2 3 3), .base (.setUi 2 1)]
      refine ⟨⟨_, _, .base (.init true 2 3 3 rfl)⟩, fun out s' e => ?_⟩
      cases e with
      | base e =>
      cases e with
      | init => exact ⟨⟨_, _, .base (.setUi (1 : Elem ff) rfl)⟩, fun _ _ _ => trivial⟩
    by_cases h3 : t = 3
    · subst h3
      show PSafe _ _ _ [.base (.readElem 0 0 1)]
      exact ⟨⟨_, _, .base (.readElem (X := !![1, 1; 0, 1]) (t := false) (0 : Fin 2) (1 : Fin 2) rfl)⟩, fun _ _ _ => trivial⟩
    · have : Schedule.of [(1, (.base (.init false 1 2 2) : POp (Elem ff))), (2, .base (.init true 2 3 3)), (1, .base (.mul 1 0 0)), (2, .base (.setUi 2 1)), (3, .base (.readElem 0 0 1))] t = [] := by
        simp [Schedule.of, Ne.symm h1, Ne.symm h2, Ne.symm h3]
      exact this ▸ trivial

end M4rie.Props
