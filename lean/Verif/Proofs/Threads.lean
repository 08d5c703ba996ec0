import Verif.Spec.Threads
import Mathlib.Data.Set.Lattice

/-! # Threads interleaving at word accesses: the general theorem -/

namespace M4rie.Spec
open M4rie
namespace Code
variable {α β : Type}

theorem alone_andThen (p : Code α) (f : α → Code β) (m : Mem) : (p.andThen f).alone m = (f (p.alone m).1).alone (p.alone m).2 := by
  induction p generalizing m with
  | done a => rfl
  | read l k ih => exact ih _ m
  | write l v k ih => exact ih _

theorem keeps_andThen {R W : Set Loc} {p : Code α} {f : α → Code β} (hp : p.Keeps R W) (hf : ∀ a, (f a).Keeps R W) : (p.andThen f).Keeps R W := by
  induction p with
  | done a => exact hf a
  | read l k ih => exact ⟨hp.1, fun v => ih v (hp.2 v)⟩
  | write l v k ih => exact ⟨hp.1, ih hp.2⟩

theorem keeps_mono {R W R' W' : Set Loc} {p : Code α} (hp : p.Keeps R W) (hR : R ⊆ R') (hW : W ⊆ W') : p.Keeps R' W' := by
  induction p with
  | done a => trivial
  | read l k ih => exact ⟨hR hp.1, fun v => ih v (hp.2 v)⟩
  | write l v k ih => exact ⟨hW hp.1, ih hp.2⟩

theorem set_self (m : Mem) (l : Loc) (v : Word) : m.set l v l = v := if_pos rfl
theorem set_ne (m : Mem) {l x : Loc} (v : Word) (h : x ≠ l) : m.set l v x = m x := if_neg h

/-- nothing outside of `W` changes -/
theorem alone_frame {R W : Set Loc} {p : Code α} (hp : p.Keeps R W) (m : Mem) {x : Loc} (hx : x ∉ W) : (p.alone m).2 x = m x := by
  induction p generalizing m with
  | done a => rfl
  | read l k ih => exact ih _ (hp.2 _) m
  | write l v k ih =>
    refine (ih hp.2 _).trans (set_ne _ _ ?_)
    rintro rfl; exact hx hp.1

/-- only the words of `R ∪ W` matter -/
theorem alone_congr {R W : Set Loc} {p : Code α} (hp : p.Keeps R W) {m m' : Mem} (h : ∀ x ∈ R ∪ W, m x = m' x) :
    (p.alone m).1 = (p.alone m').1 ∧ (∀ x ∈ R ∪ W, (p.alone m).2 x = (p.alone m').2 x) ∧ p.accesses m = p.accesses m' := by
  induction p generalizing m m' with
  | done a => exact ⟨rfl, h, rfl⟩
  | read l k ih =>
    have e : m l = m' l := h l (Or.inl hp.1)
    have := ih (m l) (hp.2 _) h
    unfold alone accesses
    rw [← e]
    exact ⟨this.1, this.2.1, congrArg (· + 1) this.2.2⟩
  | write l v k ih =>
    have := ih hp.2 (m := m.set l v) (m' := m'.set l v) (fun x hx => by unfold Mem.set; split; rfl; exact h x hx)
    exact ⟨this.1, this.2.1, congrArg (· + 1) this.2.2⟩

theorem move_keeps {R W : Set Loc} {p : Code α} (hp : p.Keeps R W) (m : Mem) : (p.move m).1.Keeps R W := by
  cases p with
  | done a => trivial
  | read l k => exact hp.2 _
  | write l v k => exact hp.2

theorem move_frame {R W : Set Loc} {p : Code α} (hp : p.Keeps R W) (m : Mem) {x : Loc} (hx : x ∉ W) : (p.move m).2 x = m x := by
  cases p with
  | done a => rfl
  | read l k => rfl
  | write l v k =>
    refine set_ne _ _ ?_
    rintro rfl; exact hx hp.1

theorem move_alone (p : Code α) (m : Mem) : (p.move m).1.alone (p.move m).2 = p.alone m := by cases p <;> rfl

theorem move_accesses (p : Code α) (m : Mem) : (p.move m).1.accesses (p.move m).2 = p.accesses m - 1 := by cases p <;> rfl

theorem accesses_zero {p : Code α} {m : Mem} (h : p.accesses m = 0) : p = done (p.alone m).1 := by
  cases p with
  | done a => rfl
  | read l k => simp [accesses] at h
  | write l v k => simp [accesses] at h

end Code

/-- the general theorem: threads that keep to their words are not disturbed -/
theorem interleave_inv {ι : Type} [DecidableEq ι] {α : Type} (R W : ι → Set Loc)
    (hr : ∀ t u, t ≠ u → Disjoint (W t) (R u ∪ W u)) :
    ∀ (ts : List ι) (p : ι → Code α) (m : Mem), (∀ t, (p t).Keeps (R t) (W t)) →
      (∀ t, ((interleave ts p m).1 t).Keeps (R t) (W t)) ∧
      (∀ t, (((interleave ts p m).1 t).alone (interleave ts p m).2).1 = ((p t).alone m).1 ∧
        (∀ x ∈ R t ∪ W t, (((interleave ts p m).1 t).alone (interleave ts p m).2).2 x = ((p t).alone m).2 x) ∧
        ((interleave ts p m).1 t).accesses (interleave ts p m).2 = (p t).accesses m - ts.count t) ∧
      (∀ x, (∀ t, x ∉ W t) → (interleave ts p m).2 x = m x)
  | [], p, m, hp => ⟨hp, fun t => ⟨rfl, fun _ _ => rfl, by simp [interleave]⟩, fun _ _ => rfl⟩
  | s :: ts, p, m, hp => by
    let p' : ι → Code α := fun u => if u = s then ((p s).move m).1 else p u
    have hp' : ∀ t, (p' t).Keeps (R t) (W t) := fun t => by
      by_cases h : t = s
      · subst h; simp only [p', if_pos]; exact Code.move_keeps (hp _) m
      · simp only [p', if_neg h]; exact hp t
    obtain ⟨i1, i2, i3⟩ := interleave_inv R W hr ts p' ((p s).move m).2 hp'
    have step : ∀ t, ((p' t).alone ((p s).move m).2).1 = ((p t).alone m).1 ∧
        (∀ x ∈ R t ∪ W t, ((p' t).alone ((p s).move m).2).2 x = ((p t).alone m).2 x) ∧
        (p' t).accesses ((p s).move m).2 = (p t).accesses m - (if s = t then 1 else 0) := by
      intro t
      by_cases h : t = s
      · subst h
        simp only [p', if_pos, Code.move_alone, Code.move_accesses]
        exact ⟨trivial, fun _ _ => trivial, trivial⟩
      · have h' : ¬ s = t := fun e => h e.symm
        simp only [p', if_neg h, if_neg h', Nat.sub_zero]
        refine Code.alone_congr (hp t) fun x hx => Code.move_frame (hp s) m fun hw => ?_
        exact Set.disjoint_left.1 (hr s t h') hw hx
    refine ⟨i1, fun t => ⟨(i2 t).1.trans (step t).1, fun x hx => ((i2 t).2.1 x hx).trans ((step t).2.1 x hx), ?_⟩, fun x hx => ?_⟩
    · refine (i2 t).2.2.trans ?_
      rw [(step t).2.2, List.count_cons]
      by_cases h : s = t
      · simp [h]; omega
      · simp [h]
    · exact (i3 x hx).trans (Code.move_frame (hp s) m (hx s))

end M4rie.Spec
