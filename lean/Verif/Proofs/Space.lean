import Verif.Model.Space
import Verif.Proofs.Cost

/-! # Traces of memory: proofs -/

namespace M4rie
open Spec

variable {α β : Type}

theorem traces_pure (a : α) : Traces (pure a) (some a) [] := fun s => by simp [pure, StateT.pure]

theorem traces_inPlace (o : Option α) : Traces (inPlace o) o [] := fun s => by simp [inPlace]

theorem traces_get (n : Nat) : Traces (getBlock n) (some ()) [.get n] := fun _ => rfl

theorem traces_put (n : Nat) : Traces (putBlock n) (some ()) [.put n] := fun _ => rfl

theorem traces_bind {x : Traced α} {o : Option α} {l l' : List Event} {f : α → Traced β} {g : α → Option β} (hx : Traces x o l)
    (hf : ∀ a, o = some a → Traces (f a) (g a) l') : Traces (x >>= f) (o.bind g) (l ++ l') := by
  intro s
  show (x s).bind (fun p => f p.1 p.2) = _
  rw [hx s]
  cases o with
  | none => rfl
  | some a =>
    show f a (s ++ l) = _
    rw [hf a rfl (s ++ l), List.append_assoc]
    rfl

theorem traces_map {x : Traced α} {o : Option α} {l : List Event} (hx : Traces x o l) (f : α → β) : Traces (x >>= fun a => pure (f a)) (o.map f) l := by
  have := traces_bind hx (f := fun a => pure (f a)) (g := fun a => some (f a)) fun a _ => traces_pure (f a)
  rw [List.append_nil] at this
  rwa [Option.map_eq_bind]

theorem Traces.congr {x : Traced α} {o : Option α} {l l' : List Event} (h : Traces x o l) (e : l = l') : Traces x o l' := e ▸ h

/-- something that returns nothing, then a computation -/
theorem traces_before {y : Traced Unit} {x : Traced α} {o : Option α} {l l' : List Event} (hy : Traces y (some ()) l) (h : Traces x o l') :
    Traces (y >>= fun _ => x) o (l ++ l') := traces_bind hy (g := fun _ => o) fun _ _ => h

/-- a computation, then something that returns nothing -/
theorem traces_after {y : Traced Unit} {x : Traced α} {o : Option α} {l l' : List Event} (h : Traces x o l) (hy : Traces y (some ()) l') :
    Traces (x >>= fun a => y >>= fun _ => pure a) o (l ++ l') := by
  have := traces_bind h (f := fun a => y >>= fun _ => pure a) (g := fun a => some a) (l' := l') fun a _ =>
    Traces.congr (traces_before hy (traces_pure a)) (List.append_nil _)
  rwa [Option.bind_fun_some] at this

theorem traces_times {x : Traced Unit} {l : List Event} (h : Traces x (some ()) l) : ∀ n, Traces (timesT n x) (some ()) (List.replicate n l).flatten
  | 0 => traces_pure ()
  | n + 1 => Traces.congr (traces_before (traces_times h n) h) (by rw [List.replicate_succ', List.flatten_append]; simp)

/-! ### in use, at the peak -/

theorem peak_nonneg (l : List Event) : 0 ≤ peak l := by cases l <;> simp [peak]

theorem inUse_nil : inUse [] = 0 := rfl

theorem peak_nil : peak [] = 0 := rfl

theorem inUse_cons (e : Event) (l : List Event) : inUse (e :: l) = e.delta + inUse l := rfl

theorem peak_cons (e : Event) (l : List Event) : peak (e :: l) = max 0 (e.delta + peak l) := rfl

theorem inUse_append (a b : List Event) : inUse (a ++ b) = inUse a + inUse b := by
  unfold inUse; rw [List.map_append, List.sum_append]

theorem peak_append : ∀ a b : List Event, peak (a ++ b) = max (peak a) (inUse a + peak b)
  | [], b => by
    have := peak_nonneg b
    rw [List.nil_append, peak_nil, inUse_nil]; omega
  | e :: a, b => by
    rw [List.cons_append, peak_cons, peak_append a b, peak_cons, inUse_cons]; omega

theorem inUse_le_peak : ∀ l : List Event, inUse l ≤ peak l
  | [] => le_refl 0
  | e :: l => by
    have := inUse_le_peak l
    rw [inUse_cons, peak_cons]; omega

/-- no prefix uses more than the peak -/
theorem prefix_le_peak (l : List Event) (i : Nat) : inUse (l.take i) ≤ peak l := by
  have h := peak_append (l.take i) (l.drop i)
  rw [List.take_append_drop] at h
  have := inUse_le_peak (l.take i)
  omega

/-- some prefix uses as much as the peak -/
theorem peak_attained : ∀ l : List Event, ∃ i ≤ l.length, inUse (l.take i) = peak l
  | [] => ⟨0, le_refl _, rfl⟩
  | e :: l => by
    obtain ⟨i, hi, h⟩ := peak_attained l
    by_cases h0 : 0 ≤ e.delta + peak l
    · refine ⟨i + 1, by simpa using hi, ?_⟩
      rw [List.take_succ_cons, inUse_cons, h, peak_cons]; omega
    · refine ⟨0, Nat.zero_le _, ?_⟩
      rw [List.take_zero, inUse_nil, peak_cons]; omega

theorem inUse_times (n : Nat) (l : List Event) : inUse (List.replicate n l).flatten = n * inUse l := by
  induction n with
  | zero => simp [inUse]
  | succ n ih => rw [List.replicate_succ, List.flatten_cons, inUse_append, ih]; push_cast; ring

/-- only allocations -/
theorem peak_gets {l : List Event} (h : ∀ e ∈ l, 0 ≤ e.delta) : peak l = inUse l := by
  induction l with
  | nil => rfl
  | cons e l ih =>
    rw [peak_cons, inUse_cons, ih fun x hx => h x (List.mem_cons_of_mem _ hx)]
    have := h e List.mem_cons_self
    have h2 := peak_nonneg l
    rw [ih fun x hx => h x (List.mem_cons_of_mem _ hx)] at h2
    omega

/-- only releases -/
theorem peak_puts {l : List Event} (h : ∀ e ∈ l, e.delta ≤ 0) : peak l = 0 := by
  induction l with
  | nil => rfl
  | cons e l ih =>
    rw [peak_cons, ih fun x hx => h x (List.mem_cons_of_mem _ hx)]
    have := h e List.mem_cons_self
    omega

/-! ### Newton-John tables -/

def tblGet (e w n : Nat) : List Event := [.get (2 ^ e / 2), .get (packedWords w (2 ^ e) n), .get (packedWords w e n)]
def tblPut (e w n : Nat) : List Event := [.put (packedWords w e n), .put (packedWords w (2 ^ e) n), .put (2 ^ e / 2)]

/-- eight tables -/
def njTrace (e w m n : Nat) : List Event :=
  if e > m then [] else (List.replicate 8 (tblGet e w n)).flatten ++ (List.replicate 8 (tblPut e w n)).flatten

theorem njtInit_traces (ff : Gf2e) (n : Nat) : Traces (njtInitT ff n) (some ()) (tblGet ff.degree (degreeToW ff.degree) n) :=
  traces_before (traces_get _) (traces_before (traces_get _) (traces_get _))

theorem njtFree_traces (ff : Gf2e) (n : Nat) : Traces (njtFreeT ff n) (some ()) (tblPut ff.degree (degreeToW ff.degree) n) :=
  traces_before (traces_put _) (traces_before (traces_put _) (traces_put _))

theorem newtonJohn_traces (nj : Mzed → Mzed → Mzed → Option Mzed) (C A B : Mzed) (h : B.ff = A.ff) :
    Traces (newtonJohnT nj C A B) (nj C A B) (njTrace A.ff.degree (degreeToW A.ff.degree) A.nrows B.ncols) := by
  unfold newtonJohnT njTrace
  rw [h]
  by_cases c : A.ff.degree > A.nrows
  · rw [if_pos c, if_pos c]; exact traces_inPlace _
  · rw [if_neg c, if_neg c]
    exact traces_before (traces_times (njtInit_traces _ _) 8) (Traces.congr (traces_after (traces_inPlace _) (traces_times (njtFree_traces _ _) 8)) (List.nil_append _))

theorem inUse_tblGet (e w n : Nat) : inUse (tblGet e w n) = tableWords e w n := by
  simp only [tblGet, inUse_cons, inUse_nil, Event.delta, tableWords]; push_cast; ring

theorem inUse_tblPut (e w n : Nat) : inUse (tblPut e w n) = -tableWords e w n := by
  simp only [tblPut, inUse_cons, inUse_nil, Event.delta, tableWords]; push_cast; ring

theorem njTrace_inUse (e w m n : Nat) : inUse (njTrace e w m n) = 0 := by
  unfold njTrace
  split_ifs
  · rfl
  · rw [inUse_append, inUse_times, inUse_times, inUse_tblGet, inUse_tblPut]; ring

theorem njTrace_peak (e w m n : Nat) : peak (njTrace e w m n) = if e > m then 0 else 8 * (tableWords e w n : Int) := by
  unfold njTrace
  split_ifs
  · rfl
  · rw [peak_append, peak_gets, peak_puts, inUse_times, inUse_tblGet]
    · push_cast; omega
    · intro x hx
      obtain ⟨l, hl, hx⟩ := List.mem_flatten.1 hx
      rw [List.eq_of_mem_replicate hl] at hx
      simp only [tblPut, List.mem_cons, List.not_mem_nil, or_false] at hx
      rcases hx with rfl | rfl | rfl <;> (simp only [Event.delta]; first | exact Int.natCast_nonneg _ | exact Int.neg_nonpos_of_nonneg (Int.natCast_nonneg _))
    · intro x hx
      obtain ⟨l, hl, hx⟩ := List.mem_flatten.1 hx
      rw [List.eq_of_mem_replicate hl] at hx
      simp only [tblGet, List.mem_cons, List.not_mem_nil, or_false] at hx
      rcases hx with rfl | rfl | rfl <;> (simp only [Event.delta]; exact Int.natCast_nonneg _)

theorem njTrace_peak_le (e w m n : Nat) : peak (njTrace e w m n) ≤ 8 * (tableWords e w n : Int) := by
  rw [njTrace_peak]; split_ifs <;> omega

/-! ### shapes of the results -/

/-- `R` has the dimensions and the field of `C` -/
def Like (C R : Mzed) : Prop := R.nrows = C.nrows ∧ R.ncols = C.ncols ∧ R.ff = C.ff

theorem Like.refl (C : Mzed) : Like C C := ⟨rfl, rfl, rfl⟩

theorem Like.trans {C D E : Mzed} (h : Like C D) (h' : Like D E) : Like C E := ⟨h'.1.trans h.1, h'.2.1.trans h.2.1, h'.2.2.trans h.2.2⟩

theorem onWindow_like {C R : Mzed} {lr lc hr hc : Nat} {f : Mzed → Option Mzed} (h : onWindow C lr lc hr hc f = some R) : Like C R := by
  unfold onWindow at h
  obtain ⟨W, -, rfl⟩ := Option.map_eq_some_iff.1 h
  exact ⟨rfl, rfl, rfl⟩

theorem copy_like {C B R : Mzed} (h : mzedCopy? C B = some R) : Like C R := by
  unfold mzedCopy? at h
  split_ifs at h
  cases h
  exact ⟨rfl, rfl, rfl⟩

theorem window_bind_like {C D R : Mzed} {lr lc hr hc : Nat} {f g : Mzed → Option Mzed} (hD : Like C D)
    (hg : ∀ D, Like C D → g D = some R → Like C R) (h : (onWindow D lr lc hr hc f).bind g = some R) : Like C R := by
  obtain ⟨E, hE, hR⟩ := Option.bind_eq_some_iff.1 h
  exact hg E (hD.trans (onWindow_like hE)) hR

theorem mulStep_like {mul : Mzed → Mzed → Mzed → Option Mzed} {C A B R : Mzed} {m k n : Nat} (h : strassenMulStep mul C A B m k n = some R) :
    Like C R := by
  unfold strassenMulStep at h
  refine window_bind_like (.refl C) (fun D1 h1 h => ?_) h
  refine window_bind_like h1 (fun D2 h2 h => ?_) h
  refine window_bind_like h2 (fun D3 h3 h => ?_) h
  refine window_bind_like h3 (fun D4 h4 h => ?_) h
  refine window_bind_like h4 (fun D5 h5 h => ?_) h
  obtain ⟨W, -, h⟩ := Option.bind_eq_some_iff.1 h
  refine window_bind_like h5 (fun D6 h6 h => ?_) h
  refine window_bind_like h6 (fun D7 h7 h => ?_) h
  refine window_bind_like h7 (fun D8 h8 h => ?_) h
  refine window_bind_like h8 (fun D9 h9 h => ?_) h
  refine window_bind_like h9 (fun D10 h10 h => ?_) h
  refine window_bind_like h10 (fun D11 h11 h => ?_) h
  refine window_bind_like h11 (fun D12 h12 h => ?_) h
  exact h12.trans (onWindow_like h)

theorem addmulStep_like {mul addmul : Mzed → Mzed → Mzed → Option Mzed} {C A B R : Mzed} {m k n : Nat}
    (h : strassenAddmulStep mul addmul C A B m k n = some R) : Like C R := by
  unfold strassenAddmulStep at h
  obtain ⟨U, -, h⟩ := Option.bind_eq_some_iff.1 h
  refine window_bind_like (.refl C) (fun D1 h1 h => ?_) h
  refine window_bind_like h1 (fun D2 h2 h => ?_) h
  obtain ⟨U, -, h⟩ := Option.bind_eq_some_iff.1 h
  refine window_bind_like h2 (fun D3 h3 h => ?_) h
  refine window_bind_like h3 (fun D4 h4 h => ?_) h
  obtain ⟨U, -, h⟩ := Option.bind_eq_some_iff.1 h
  refine window_bind_like h4 (fun D5 h5 h => ?_) h
  refine window_bind_like h5 (fun D6 h6 h => ?_) h
  refine window_bind_like h6 (fun D7 h7 h => ?_) h
  obtain ⟨U, -, h⟩ := Option.bind_eq_some_iff.1 h
  refine window_bind_like h7 (fun D8 h8 h => ?_) h
  exact h8.trans (onWindow_like h)

theorem rest_like {nj : Mzed → Mzed → Mzed → Option Mzed} {clear : Bool} {C A B R : Mzed} {m k n m2 k2 n2 : Nat}
    (h : strassenRest nj clear C A B m k n m2 k2 n2 = some R) : Like C R := by
  unfold strassenRest at h
  have one : ∀ {p : Prop} [Decidable p] {D E : Mzed} {lr lc hr hc : Nat} {f : Mzed → Option Mzed}, Like C D →
      (if p then onWindow D lr lc hr hc f else some D) = some E → Like C E := by
    intro p _ D E lr lc hr hc f hD h
    by_cases hp : p
    · rw [if_pos hp] at h; exact hD.trans (onWindow_like h)
    · rw [if_neg hp] at h; cases h; exact hD
  obtain ⟨D1, e1, h⟩ := Option.bind_eq_some_iff.1 h
  obtain ⟨D2, e2, h⟩ := Option.bind_eq_some_iff.1 h
  exact one (one (one (.refl C) e1) e2) h

theorem mulStrassen_like (nj : Mzed → Mzed → Mzed → Option Mzed) (cutoff : Int) : ∀ fuel C A B R, mulStrassenF nj cutoff fuel C A B = some R → Like C R
  | 0, _, _, _, _, h => by cases h
  | fuel + 1, C, A, B, R, h => by
    unfold mulStrassenF at h
    split_ifs at h
    · cases h; exact .refl C
    · obtain ⟨D, -, h⟩ := Option.bind_eq_some_iff.1 h
      exact copy_like h
    · obtain ⟨D, hD, h⟩ := Option.bind_eq_some_iff.1 h
      exact (mulStep_like hD).trans (rest_like h)

theorem addmulStrassen_like (nj : Mzed → Mzed → Mzed → Option Mzed) (cutoff : Int) : ∀ fuel C A B R, addmulStrassenF nj cutoff fuel C A B = some R → Like C R
  | 0, _, _, _, _, h => by cases h
  | fuel + 1, C, A, B, R, h => by
    unfold addmulStrassenF at h
    split_ifs at h
    · cases h; exact .refl C
    · obtain ⟨D, -, h⟩ := Option.bind_eq_some_iff.1 h
      obtain ⟨E, -, h⟩ := Option.bind_eq_some_iff.1 h
      exact copy_like h
    · obtain ⟨D, hD, h⟩ := Option.bind_eq_some_iff.1 h
      exact (addmulStep_like hD).trans (rest_like h)

/-! ### strassen.c -/

theorem onWindow_traces (C : Mzed) (lr lc hr hc : Nat) {f : Mzed → Traced Mzed} {g : Mzed → Option Mzed} {l : List Event}
    (h : Traces (f (mzedWindow C lr lc hr hc)) (g (mzedWindow C lr lc hr hc)) l) : Traces (onWindowT C lr lc hr hc f) (onWindow C lr lc hr hc g) l :=
  traces_map h _

theorem init_traces {o : Option β} {f : Mzed → Traced β} {l : List Event} (ff : Gf2e) (fid m n : Nat)
    (h : Traces (f (mzedInit ff fid m n)) o l) :
    Traces (mzedInitT ff fid m n >>= f) o (.get (packedWords (degreeToW ff.degree) m n) :: l) := by
  have hi : Traces (mzedInitT ff fid m n) (some (mzedInit ff fid m n)) [.get (packedWords (degreeToW ff.degree) m n)] :=
    traces_before (traces_get _) (traces_pure _)
  exact traces_bind hi (g := fun _ => o) fun a ha => by cases ha; exact h

theorem free_traces {x : Traced α} {o : Option α} {l : List Event} (ff : Gf2e) (m n : Nat) (h : Traces x o l) :
    Traces (mzedFreeT ff m n >>= fun _ => x) o (.put (packedWords (degreeToW ff.degree) m n) :: l) := traces_before (traces_put _) h

/-- a recursive call traces `l` if it multiplies `m × k` by `k × n` over the field `ff` -/
def StepTraces (ff : Gf2e) (mulT : Mzed → Mzed → Mzed → Traced Mzed) (mul : Mzed → Mzed → Mzed → Option Mzed) (m k n : Nat) (l : List Event) : Prop :=
  ∀ C A B, A.w = degreeToW ff.degree → C.ff = ff → A.ff = ff → B.ff = ff → C.nrows = m → C.ncols = n → A.nrows = m → A.ncols = k → B.ncols = n →
    Traces (mulT C A B) (mul C A B) l

/-- one level of the multiplication -/
def mulNode (mk kn mn : Nat) (l : List Event) : List Event :=
  .get mk :: .get kn :: (l ++ (l ++ (l ++ (l ++ (.put mk :: .get mn :: (l ++ (l ++ (.put kn :: (l ++ [.put mn])))))))))

theorem mulStep_traces {A : Mzed} {mulT : Mzed → Mzed → Mzed → Traced Mzed} {mul : Mzed → Mzed → Mzed → Option Mzed} {m k n : Nat}
    {l : List Event} (h : StepTraces A.ff mulT mul m k n l) (C B : Mzed) (hC : C.ff = A.ff) (hB : B.ff = A.ff) :
    Traces (strassenMulStepT mulT C A B m k n) (strassenMulStep mul C A B m k n)
      (mulNode (packedWords (degreeToW A.ff.degree) m k) (packedWords (degreeToW A.ff.degree) k n) (packedWords (degreeToW A.ff.degree) m n) l) := by
  unfold strassenMulStepT strassenMulStep mulNode
  have two : ∀ x : Nat, 2 * x - x = x := fun x => by omega
  have call : ∀ (C D E : Mzed) (lr lc hr hc : Nat), D.w = degreeToW A.ff.degree → C.ff = A.ff → D.ff = A.ff → E.ff = A.ff → hr - lr = m → hc - lc = n →
      D.nrows = m → D.ncols = k →
      E.ncols = n → Traces (onWindowT C lr lc hr hc fun W => mulT W D E) (onWindow C lr lc hr hc fun W => mul W D E) l :=
    fun C D E lr lc hr hc h1 h0 h2 h2' h3 h4 h5 h6 h7 => onWindow_traces C lr lc hr hc (h _ D E h1 h0 h2 h2' h3 h4 h5 h6 h7)
  have add : ∀ (C : Mzed) (lr lc hr hc : Nat) (f : Mzed → Mzed), Traces (onWindowT C lr lc hr hc fun W => pure (f W))
      (onWindow C lr lc hr hc fun W => some (f W)) [] := fun C lr lc hr hc f => onWindow_traces C lr lc hr hc (traces_pure _)
  have ff1 : ∀ {C D : Mzed} {lr lc hr hc : Nat} {f : Mzed → Option Mzed}, C.ff = A.ff → onWindow C lr lc hr hc f = some D → D.ff = A.ff :=
    fun hC e => (onWindow_like e).2.2.trans hC
  refine init_traces _ _ _ _ (init_traces _ _ _ _ ?_)
  refine traces_bind (call _ _ _ _ _ _ _ rfl hC rfl rfl (two m) rfl rfl rfl rfl) fun C1 e1 => ?_
  replace e1 := ff1 hC e1
  refine traces_bind (call _ _ _ _ _ _ _ rfl e1 rfl rfl (two m) (two n) rfl rfl rfl) fun C2 e2 => ?_
  replace e2 := ff1 e1 e2
  refine traces_bind (call _ _ _ _ _ _ _ rfl e2 rfl rfl rfl rfl rfl rfl rfl) fun C3 e3 => ?_
  replace e3 := ff1 e2 e3
  refine traces_bind (call _ _ _ _ _ _ _ rfl e3 rfl hB rfl (two n) rfl rfl (two n)) fun C4 e4 => ?_
  replace e4 := ff1 e3 e4
  refine Traces.congr (traces_bind (add _ _ _ _ _ _) fun C5 e5 => ?_) (List.nil_append _)
  replace e5 := ff1 e4 e5
  refine free_traces _ _ _ (init_traces _ _ _ _ ?_)
  refine traces_bind (h _ _ _ rfl rfl rfl hB rfl rfl rfl (two k) rfl) fun W _ => ?_
  refine Traces.congr (traces_bind (add _ _ _ _ _ _) fun C6 e6 => ?_) (List.nil_append _)
  replace e6 := ff1 e5 e6
  refine Traces.congr (traces_bind (add _ _ _ _ _ _) fun C7 e7 => ?_) (List.nil_append _)
  replace e7 := ff1 e6 e7
  refine Traces.congr (traces_bind (add _ _ _ _ _ _) fun C8 e8 => ?_) (List.nil_append _)
  replace e8 := ff1 e7 e8
  refine traces_bind (call _ _ _ _ _ _ _ rfl e8 rfl rfl (two m) rfl (two m) rfl rfl) fun C9 e9 => ?_
  replace e9 := ff1 e8 e9
  refine free_traces _ _ _ ?_
  refine Traces.congr (traces_bind (add _ _ _ _ _ _) fun C10 e10 => ?_) (List.nil_append _)
  replace e10 := ff1 e9 e10
  refine Traces.congr (traces_bind (add _ _ _ _ _ _) fun C11 e11 => ?_) (List.nil_append _)
  replace e11 := ff1 e10 e11
  refine traces_bind (call _ _ _ _ _ _ _ rfl e11 rfl hB rfl rfl rfl rfl rfl) fun C12 _ => ?_
  exact Traces.congr (traces_after (add _ _ _ _ _ _) (traces_put _)) (List.nil_append _)

/-- one level of the multiplication with addition -/
def addmulNode (mk kn mn : Nat) (l l' : List Event) : List Event :=
  .get mk :: .get kn :: .get mn :: (l ++ (l ++ (l' ++ (l' ++ (l' ++ (l' ++ (l' ++ [.put mk, .put kn, .put mn])))))))

theorem addmulStep_traces {A : Mzed} {mulT addmulT : Mzed → Mzed → Mzed → Traced Mzed} {mul addmul : Mzed → Mzed → Mzed → Option Mzed} {m k n : Nat}
    {l l' : List Event} (h : StepTraces A.ff mulT mul m k n l) (h' : StepTraces A.ff addmulT addmul m k n l')
    (hd : ∀ C A B R, mul C A B = some R → Like C R) (hd' : ∀ C A B R, addmul C A B = some R → Like C R)
    (C B : Mzed) (hC : C.ff = A.ff) (hB : B.ff = A.ff) :
    Traces (strassenAddmulStepT mulT addmulT C A B m k n) (strassenAddmulStep mul addmul C A B m k n)
      (addmulNode (packedWords (degreeToW A.ff.degree) m k) (packedWords (degreeToW A.ff.degree) k n) (packedWords (degreeToW A.ff.degree) m n) l l') := by
  unfold strassenAddmulStepT strassenAddmulStep addmulNode
  have two : ∀ x : Nat, 2 * x - x = x := fun x => by omega
  have call : ∀ (C D E : Mzed) (lr lc hr hc : Nat), D.w = degreeToW A.ff.degree → C.ff = A.ff → D.ff = A.ff → E.ff = A.ff → hr - lr = m → hc - lc = n →
      D.nrows = m → D.ncols = k →
      E.ncols = n → Traces (onWindowT C lr lc hr hc fun W => addmulT W D E) (onWindow C lr lc hr hc fun W => addmul W D E) l' :=
    fun C D E lr lc hr hc h1 h0 h2 h2' h3 h4 h5 h6 h7 => onWindow_traces C lr lc hr hc (h' _ D E h1 h0 h2 h2' h3 h4 h5 h6 h7)
  have add : ∀ (C : Mzed) (lr lc hr hc : Nat) (f : Mzed → Mzed), Traces (onWindowT C lr lc hr hc fun W => pure (f W))
      (onWindow C lr lc hr hc fun W => some (f W)) [] := fun C lr lc hr hc f => onWindow_traces C lr lc hr hc (traces_pure _)
  have ff1 : ∀ {C D : Mzed} {lr lc hr hc : Nat} {f : Mzed → Option Mzed}, C.ff = A.ff → onWindow C lr lc hr hc f = some D → D.ff = A.ff :=
    fun hC e => (onWindow_like e).2.2.trans hC
  refine init_traces _ _ _ _ (init_traces _ _ _ _ (init_traces _ _ _ _ ?_))
  refine traces_bind (h _ _ _ rfl rfl rfl rfl rfl rfl rfl rfl rfl) fun U eU => ?_
  obtain ⟨u1, u2, u3⟩ := hd _ _ _ _ eU
  refine Traces.congr (traces_bind (add _ _ _ _ _ _) fun C1 e1 => ?_) (List.nil_append _)
  replace e1 := ff1 hC e1
  refine Traces.congr (traces_bind (add _ _ _ _ _ _) fun C2 e2 => ?_) (List.nil_append _)
  replace e2 := ff1 e1 e2
  refine traces_bind (h _ _ _ rfl u3 rfl hB u1 u2 rfl (two k) rfl) fun U' eU' => ?_
  obtain ⟨v1, v2, v3⟩ := hd _ _ _ _ eU'
  refine Traces.congr (traces_bind (add _ _ _ _ _ _) fun C3 e3 => ?_) (List.nil_append _)
  replace e3 := ff1 e2 e3
  refine traces_bind (call _ _ _ _ _ _ _ rfl e3 rfl hB rfl rfl rfl rfl rfl) fun C4 e4 => ?_
  replace e4 := ff1 e3 e4
  refine traces_bind (h' _ _ _ rfl (v3.trans u3) rfl rfl (v1.trans u1) (v2.trans u2) rfl rfl rfl) fun U'' eU'' => ?_
  obtain ⟨w1, w2, w3⟩ := hd' _ _ _ _ eU''
  refine Traces.congr (traces_bind (add _ _ _ _ _ _) fun C5 e5 => ?_) (List.nil_append _)
  replace e5 := ff1 e4 e5
  refine traces_bind (call _ _ _ _ _ _ _ rfl e5 rfl hB rfl (two n) rfl rfl (two n)) fun C6 e6 => ?_
  replace e6 := ff1 e5 e6
  refine traces_bind (call _ _ _ _ _ _ _ rfl e6 rfl rfl (two m) rfl (two m) rfl rfl) fun C7 e7 => ?_
  replace e7 := ff1 e6 e7
  refine traces_bind (h' _ _ _ rfl (w3.trans (v3.trans u3)) rfl rfl (w1.trans (v1.trans u1)) (w2.trans (v2.trans u2)) rfl rfl rfl) fun U3 _ => ?_
  refine Traces.congr (traces_bind (add _ _ _ _ _ _) fun C8 e8 => ?_) (List.nil_append _)
  refine Traces.congr (traces_bind (add _ _ _ _ _ _) fun C9 e9 => ?_) (List.nil_append _)
  exact free_traces _ _ _ (free_traces _ _ _ (free_traces _ _ _ (traces_pure _)))

/-- the tables for the remaining rows and columns -/
def restTrace (e w m n : Nat) (k m2 k2 n2 : Nat) : List Event :=
  (if n > n2 then njTrace e w m (n - n2) else []) ++ ((if m > m2 then njTrace e w (m - m2) n2 else []) ++
    if k > k2 then njTrace e w m2 n2 else [])

theorem rest_traces (nj : Mzed → Mzed → Mzed → Option Mzed) (clear : Bool) (C A B : Mzed) (m k n m2 k2 n2 : Nat) (hm : A.nrows = m) (hB : B.ff = A.ff) :
    Traces (strassenRestT nj clear C A B m k n m2 k2 n2) (strassenRest nj clear C A B m k n m2 k2 n2)
      (restTrace A.ff.degree (degreeToW A.ff.degree) m n k m2 k2 n2) := by
  unfold strassenRestT strassenRest restTrace
  refine traces_bind ?_ fun C1 _ => traces_bind ?_ fun C2 _ => ?_
  · by_cases h : n > n2
    · rw [if_pos h, if_pos h, if_pos h]
      exact Traces.congr (onWindow_traces _ _ _ _ _ (newtonJohn_traces nj _ _ _ hB)) (by rw [hm]; rfl)
    · rw [if_neg h, if_neg h, if_neg h]
      exact traces_pure C
  · by_cases h : m > m2
    · rw [if_pos h, if_pos h, if_pos h]
      exact Traces.congr (onWindow_traces _ _ _ _ _ (newtonJohn_traces nj _ _ _ hB)) rfl
    · rw [if_neg h, if_neg h, if_neg h]
      exact traces_pure C1
  · by_cases h : k > k2
    · rw [if_pos h, if_pos h, if_pos h]
      exact Traces.congr (onWindow_traces _ _ _ _ _ (newtonJohn_traces nj _ _ _ hB)) rfl
    · rw [if_neg h, if_neg h, if_neg h]
      exact traces_pure C2

/-- a leaf of the recursion: a copy of the result, and the tables -/
def leafTrace (e w m n : Nat) : List Event := .get (packedWords w m n) :: (njTrace e w m n ++ [.put (packedWords w m n)])

def mulTrace (e w : Nat) (cutoff : Int) : Nat → Nat → Nat → Nat → List Event
  | 0, _, _, _ => []
  | fuel + 1, m, k, n =>
    if m = 0 ∧ n = 0 then []
    else if strassenBase cutoff m k n then leafTrace e w m n
    else mulNode (packedWords w (halfDim w m) (halfDim w k)) (packedWords w (halfDim w k) (halfDim w n)) (packedWords w (halfDim w m) (halfDim w n))
        (mulTrace e w cutoff fuel (halfDim w m) (halfDim w k) (halfDim w n)) ++
      restTrace e w m n k (2 * halfDim w m) (2 * halfDim w k) (2 * halfDim w n)

def addmulTrace (e w : Nat) (cutoff : Int) : Nat → Nat → Nat → Nat → List Event
  | 0, _, _, _ => []
  | fuel + 1, m, k, n =>
    if m = 0 ∧ n = 0 then []
    else if strassenBase cutoff m k n then leafTrace e w m n
    else addmulNode (packedWords w (halfDim w m) (halfDim w k)) (packedWords w (halfDim w k) (halfDim w n)) (packedWords w (halfDim w m) (halfDim w n))
        (mulTrace e w cutoff fuel (halfDim w m) (halfDim w k) (halfDim w n)) (addmulTrace e w cutoff fuel (halfDim w m) (halfDim w k) (halfDim w n)) ++
      restTrace e w m n k (2 * halfDim w m) (2 * halfDim w k) (2 * halfDim w n)

theorem mulStrassen_traces (nj : Mzed → Mzed → Mzed → Option Mzed) (cutoff : Int) (ff : Gf2e) : ∀ fuel m k n,
    StepTraces ff (mulStrassenT nj cutoff fuel) (mulStrassenF nj cutoff fuel) m k n (mulTrace ff.degree (degreeToW ff.degree) cutoff fuel m k n)
  | 0, _, _, _ => fun _ _ _ _ _ _ _ _ _ _ _ _ => traces_inPlace none
  | fuel + 1, m, k, n => by
    intro C A B hw hfC hff hfB h1 h2 h3 h4 h5
    unfold mulStrassenT mulStrassenF mulTrace
    rw [h1, h2, h3, h4, h5, hw]
    by_cases c1 : m = 0 ∧ n = 0
    · rw [if_pos c1, if_pos c1, if_pos c1]; exact traces_pure C
    rw [if_neg c1, if_neg c1, if_neg c1]
    by_cases c2 : strassenBase cutoff m k n = true
    · rw [if_pos c2, if_pos c2, if_pos c2]
      refine Traces.congr (init_traces _ _ _ _ (traces_bind (newtonJohn_traces nj _ A B (hfB.trans hff.symm)) fun D _ =>
        Traces.congr (traces_after (traces_inPlace _) (traces_put _)) (List.nil_append _))) ?_
      rw [hfC, hff, h3, h5]; rfl
    rw [if_neg c2, if_neg c2, if_neg c2]
    subst hff
    exact traces_bind (mulStep_traces (mulStrassen_traces nj cutoff A.ff fuel _ _ _) C B hfC hfB) fun D _ => rest_traces nj true D A B _ _ _ _ _ _ h3 hfB

theorem addmulStrassen_traces (nj : Mzed → Mzed → Mzed → Option Mzed) (cutoff : Int) (ff : Gf2e) : ∀ fuel m k n,
    StepTraces ff (addmulStrassenT nj cutoff fuel) (addmulStrassenF nj cutoff fuel) m k n (addmulTrace ff.degree (degreeToW ff.degree) cutoff fuel m k n)
  | 0, _, _, _ => fun _ _ _ _ _ _ _ _ _ _ _ _ => traces_inPlace none
  | fuel + 1, m, k, n => by
    intro C A B hw hfC hff hfB h1 h2 h3 h4 h5
    unfold addmulStrassenT addmulStrassenF addmulTrace
    rw [h1, h2, h3, h4, h5, hw]
    by_cases c1 : m = 0 ∧ n = 0
    · rw [if_pos c1, if_pos c1, if_pos c1]; exact traces_pure C
    rw [if_neg c1, if_neg c1, if_neg c1]
    by_cases c2 : strassenBase cutoff m k n = true
    · rw [if_pos c2, if_pos c2, if_pos c2]
      refine Traces.congr (init_traces _ _ _ _ (traces_bind (traces_inPlace _) fun D _ => traces_bind (newtonJohn_traces nj _ A B (hfB.trans hff.symm)) fun D _ =>
        Traces.congr (traces_after (traces_inPlace _) (traces_put _)) (List.nil_append _))) ?_
      rw [hfC, hff, h3, h5]; rfl
    rw [if_neg c2, if_neg c2, if_neg c2]
    subst hff
    exact traces_bind (addmulStep_traces (mulStrassen_traces nj cutoff A.ff fuel _ _ _) (addmulStrassen_traces nj cutoff A.ff fuel _ _ _)
      (mulStrassen_like nj cutoff fuel) (addmulStrassen_like nj cutoff fuel) C B hfC hfB) fun D _ => rest_traces nj false D A B _ _ _ _ _ _ h3 hfB

/-! ### the size of the traces -/

theorem mulNode_size {l : List Event} (h : inUse l = 0) (mk kn mn : Nat) : inUse (mulNode mk kn mn l) = 0 ∧
    peak (mulNode mk kn mn l) = (max mk mn + kn : Nat) + peak l := by
  have := peak_nonneg l
  simp only [mulNode, inUse_cons, inUse_append, inUse_nil, peak_cons, peak_append, peak_nil, Event.delta, h]
  constructor <;> omega

theorem addmulNode_size {l l' : List Event} (h : inUse l = 0) (h' : inUse l' = 0) (mk kn mn : Nat) : inUse (addmulNode mk kn mn l l') = 0 ∧
    peak (addmulNode mk kn mn l l') = (mk + kn + mn : Nat) + max (peak l) (peak l') := by
  have := peak_nonneg l
  simp only [addmulNode, inUse_cons, inUse_append, inUse_nil, peak_cons, peak_append, peak_nil, Event.delta, h, h']
  constructor <;> omega

theorem leafTrace_size (e w m n : Nat) : inUse (leafTrace e w m n) = 0 ∧
    peak (leafTrace e w m n) = packedWords w m n + if e > m then 0 else 8 * (tableWords e w n : Int) := by
  have h := njTrace_peak e w m n
  have h0 := njTrace_inUse e w m n
  have hn := peak_nonneg (njTrace e w m n)
  simp only [leafTrace, inUse_cons, inUse_append, inUse_nil, peak_cons, peak_append, peak_nil, Event.delta, h0]
  rw [← h]
  constructor <;> omega

theorem packedWords_mono {w m m' n n' : Nat} (hm : m ≤ m') (hn : n ≤ n') : packedWords w m n ≤ packedWords w m' n' := by
  unfold packedWords
  exact Nat.mul_le_mul hm (Nat.div_le_div_right (Nat.add_le_add_right (Nat.mul_le_mul_left w hn) 63))

theorem tableWords_mono {e w n n' : Nat} (hn : n ≤ n') : tableWords e w n ≤ tableWords e w n' := by
  have := packedWords_mono (w := w) (le_refl (2 ^ e)) hn
  have := packedWords_mono (w := w) (le_refl e) hn
  unfold tableWords; omega

theorem restTrace_inUse (e w m n k m2 k2 n2 : Nat) : inUse (restTrace e w m n k m2 k2 n2) = 0 := by
  unfold restTrace
  rw [inUse_append, inUse_append]
  split_ifs <;> simp [njTrace_inUse, inUse_nil]

theorem restTrace_peak (e w m n k m2 k2 n2 : Nat) (hn : n2 ≤ n) : peak (restTrace e w m n k m2 k2 n2) ≤ 8 * (tableWords e w n : Int) := by
  have t1 : (tableWords e w (n - n2) : Int) ≤ tableWords e w n := by exact_mod_cast tableWords_mono (Nat.sub_le n n2)
  have t2 : (tableWords e w n2 : Int) ≤ tableWords e w n := by exact_mod_cast tableWords_mono hn
  have one : ∀ (p : Prop) [Decidable p] (a b : Nat), (tableWords e w b : Int) ≤ tableWords e w n →
      peak (if p then njTrace e w a b else []) ≤ 8 * (tableWords e w n : Int) ∧ inUse (if p then njTrace e w a b else []) = 0 := by
    intro p _ a b h
    have := njTrace_peak_le e w a b
    split_ifs
    · exact ⟨by omega, njTrace_inUse _ _ _ _⟩
    · exact ⟨by rw [peak_nil]; omega, rfl⟩
  unfold restTrace
  obtain ⟨a1, a2⟩ := one (n > n2) m (n - n2) t1
  obtain ⟨b1, b2⟩ := one (m > m2) (m - m2) n2 t2
  obtain ⟨c1, c2⟩ := one (k > k2) m2 n2 t2
  rw [peak_append, peak_append, a2, b2]
  omega

/-- the halves of a matrix are no larger than a quarter of it -/
theorem packedWords_half {w : Nat} (hw : w = 2 ∨ w = 4 ∨ w = 8 ∨ w = 16) (m n : Nat) :
    4 * packedWords w (halfDim w m) (halfDim w n) ≤ packedWords w m n := by
  unfold packedWords
  have h1 := halfDim_le w m
  have h2 : 2 * ((w * halfDim w n + 63) / 64) ≤ (w * n + 63) / 64 := by
    unfold halfDim
    rcases hw with rfl | rfl | rfl | rfl <;> omega
  calc 4 * (halfDim w m * ((w * halfDim w n + 63) / 64)) = (2 * halfDim w m) * (2 * ((w * halfDim w n + 63) / 64)) := by ring
    _ ≤ m * ((w * n + 63) / 64) := Nat.mul_le_mul h1 h2

theorem halfDim_le' (w m : Nat) : halfDim w m ≤ m := by have := halfDim_le w m; omega

theorem mulTrace_size (e : Nat) {w : Nat} (hw : w = 2 ∨ w = 4 ∨ w = 8 ∨ w = 16) (cutoff : Int) : ∀ fuel m k n, inUse (mulTrace e w cutoff fuel m k n) = 0 ∧
    3 * peak (mulTrace e w cutoff fuel m k n) ≤
      (max (packedWords w k n + max (packedWords w m k) (packedWords w m n)) (3 * packedWords w m n) : Nat) + 3 * (8 * (tableWords e w n : Int))
  | 0, _, _, _ => ⟨rfl, by rw [mulTrace, peak_nil]; omega⟩
  | fuel + 1, m, k, n => by
    unfold mulTrace
    split_ifs with h1 h2
    · exact ⟨rfl, by rw [peak_nil]; omega⟩
    · obtain ⟨a, b⟩ := leafTrace_size e w m n
      refine ⟨a, ?_⟩
      rw [b]; split_ifs <;> omega
    · obtain ⟨i1, i2⟩ := mulTrace_size e hw cutoff fuel (halfDim w m) (halfDim w k) (halfDim w n)
      obtain ⟨n1, n2⟩ := mulNode_size i1 (packedWords w (halfDim w m) (halfDim w k)) (packedWords w (halfDim w k) (halfDim w n)) (packedWords w (halfDim w m) (halfDim w n))
      have r1 := restTrace_inUse e w m n k (2 * halfDim w m) (2 * halfDim w k) (2 * halfDim w n)
      have r2 := restTrace_peak e w m n k (2 * halfDim w m) (2 * halfDim w k) (2 * halfDim w n) (halfDim_le w n)
      have q1 := packedWords_half hw m k
      have q2 := packedWords_half hw k n
      have q3 := packedWords_half hw m n
      have t := tableWords_mono (e := e) (w := w) (halfDim_le' w n)
      rw [inUse_append, peak_append, n1, r1, n2]
      refine ⟨rfl, ?_⟩
      omega

theorem addmulTrace_size (e : Nat) {w : Nat} (hw : w = 2 ∨ w = 4 ∨ w = 8 ∨ w = 16) (cutoff : Int) : ∀ fuel m k n, inUse (addmulTrace e w cutoff fuel m k n) = 0 ∧
    3 * peak (addmulTrace e w cutoff fuel m k n) ≤
      (max (packedWords w m k + packedWords w k n + packedWords w m n) (3 * packedWords w m n) : Nat) + 3 * (8 * (tableWords e w n : Int))
  | 0, _, _, _ => ⟨rfl, by rw [addmulTrace, peak_nil]; omega⟩
  | fuel + 1, m, k, n => by
    unfold addmulTrace
    split_ifs with h1 h2
    · exact ⟨rfl, by rw [peak_nil]; omega⟩
    · obtain ⟨a, b⟩ := leafTrace_size e w m n
      refine ⟨a, ?_⟩
      rw [b]; split_ifs <;> omega
    · obtain ⟨i1, i2⟩ := mulTrace_size e hw cutoff fuel (halfDim w m) (halfDim w k) (halfDim w n)
      obtain ⟨j1, j2⟩ := addmulTrace_size e hw cutoff fuel (halfDim w m) (halfDim w k) (halfDim w n)
      obtain ⟨n1, n2⟩ := addmulNode_size i1 j1 (packedWords w (halfDim w m) (halfDim w k)) (packedWords w (halfDim w k) (halfDim w n)) (packedWords w (halfDim w m) (halfDim w n))
      have r1 := restTrace_inUse e w m n k (2 * halfDim w m) (2 * halfDim w k) (2 * halfDim w n)
      have r2 := restTrace_peak e w m n k (2 * halfDim w m) (2 * halfDim w k) (2 * halfDim w n) (halfDim_le w n)
      have q1 := packedWords_half hw m k
      have q2 := packedWords_half hw k n
      have q3 := packedWords_half hw m n
      have t := tableWords_mono (e := e) (w := w) (halfDim_le' w n)
      rw [inUse_append, peak_append, n1, r1, n2]
      refine ⟨rfl, ?_⟩
      omega

/-! ### no remainders and exactly `j` halvings -/

theorem strassenBase_self {b : Nat} (hb : 0 < b) : strassenBase (b : Int) b b b = true := by
  unfold strassenBase closer
  have : (((b : Int) - b).natAbs < (((b / 2 : Nat) : Int) - (b : Int)).natAbs) := by omega
  rw [decide_eq_true this]
  rfl

/-- a dimension no larger than the cutoff stops the recursion -/
theorem strassenBase_small {cutoff : Int} {m k n : Nat} (h : (0 < m ∧ (m : Int) ≤ cutoff) ∨ (0 < k ∧ (k : Int) ≤ cutoff) ∨ (0 < n ∧ (n : Int) ≤ cutoff)) :
    strassenBase cutoff m k n = true := by
  have one : ∀ x : Nat, 0 < x → (x : Int) ≤ cutoff → closer x (x / 2) cutoff = true := by
    intro x h1 h2
    unfold closer
    exact decide_eq_true (by omega)
  unfold strassenBase
  rcases h with ⟨h1, h2⟩ | ⟨h1, h2⟩ | ⟨h1, h2⟩ <;> simp [one _ h1 h2]

theorem strassenBase_double {b x : Nat} (hx : b ≤ x) (hb : 0 < b) : ¬ strassenBase (b : Int) (2 * x) (2 * x) (2 * x) = true := by
  unfold strassenBase closer
  rw [Nat.mul_div_cancel_left _ (by norm_num)]
  have : ¬ (((2 * x : Nat) : Int) - b).natAbs < (((x : Nat) : Int) - (b : Int)).natAbs := by omega
  simp only [this, decide_false, Bool.or_self]
  simp

theorem halfDim_double {w x : Nat} (hd : 64 / w ∣ x) : halfDim w (2 * x) = x := by
  unfold halfDim
  rw [Nat.mul_div_cancel_left _ (by norm_num), Nat.mod_eq_zero_of_dvd hd, Nat.sub_zero]

theorem restTrace_nil (e w m n k : Nat) : restTrace e w m n k m k n = [] := by
  unfold restTrace
  rw [if_neg (by omega), if_neg (by omega), if_neg (by omega)]
  rfl

theorem packedWords_pow {w b : Nat} (h : 64 ∣ w * b) (i : Nat) : packedWords w (2 ^ i * b) (2 ^ i * b) = 4 ^ i * packedWords w b b := by
  obtain ⟨c, hc⟩ := h
  have e1 : (w * b + 63) / 64 = c := by omega
  have e2 : (w * (2 ^ i * b) + 63) / 64 = 2 ^ i * c := by
    have : w * (2 ^ i * b) = 64 * (2 ^ i * c) := by rw [Nat.mul_left_comm, hc]; ring
    omega
  unfold packedWords
  rw [e1, e2, show (4 : Nat) = 2 * 2 from rfl, mul_pow]; ring

theorem traces_pow (e : Nat) {w b : Nat} (hb : 0 < b) (hd : 64 / w ∣ b) (h64 : 64 ∣ w * b) : ∀ j fuel, j < fuel →
    inUse (mulTrace e w (b : Int) fuel (2 ^ j * b) (2 ^ j * b) (2 ^ j * b)) = 0 ∧
    inUse (addmulTrace e w (b : Int) fuel (2 ^ j * b) (2 ^ j * b) (2 ^ j * b)) = 0 ∧
    3 * peak (mulTrace e w (b : Int) fuel (2 ^ j * b) (2 ^ j * b) (2 ^ j * b)) =
      ((2 * 4 ^ j + 1) * packedWords w b b : Nat) + 3 * (if e > b then 0 else 8 * (tableWords e w b : Int)) ∧
    peak (addmulTrace e w (b : Int) fuel (2 ^ j * b) (2 ^ j * b) (2 ^ j * b)) =
      (4 ^ j * packedWords w b b : Nat) + (if e > b then 0 else 8 * (tableWords e w b : Int)) := by
  intro j
  induction j with
  | zero =>
    intro fuel hf
    obtain ⟨f, rfl⟩ : ∃ f, fuel = f + 1 := ⟨fuel - 1, by omega⟩
    unfold mulTrace addmulTrace
    have c0 : ¬ (b = 0 ∧ b = 0) := by omega
    rw [pow_zero, one_mul, if_neg c0, if_neg c0, if_pos (strassenBase_self hb), if_pos (strassenBase_self hb)]
    obtain ⟨a, c⟩ := leafTrace_size e w b b
    refine ⟨a, a, ?_, ?_⟩
    · rw [c]; push_cast; ring
    · rw [c]; push_cast; ring
  | succ j ih =>
    intro fuel hf
    obtain ⟨f, rfl⟩ : ∃ f, fuel = f + 1 := ⟨fuel - 1, by omega⟩
    have hp : 1 ≤ 2 ^ j := Nat.one_le_two_pow
    have e2 : 2 ^ (j + 1) * b = 2 * (2 ^ j * b) := by ring
    have hx : b ≤ 2 ^ j * b := Nat.le_mul_of_pos_left b hp
    have hh := halfDim_double (hd.mul_left (2 ^ j))
    unfold mulTrace addmulTrace
    obtain ⟨i1, i2, i3, i4⟩ := ih f (by omega)
    have c0 : ¬ (2 * (2 ^ j * b) = 0 ∧ 2 * (2 ^ j * b) = 0) := by omega
    rw [e2, if_neg c0, if_neg c0, if_neg (strassenBase_double hx hb), if_neg (strassenBase_double hx hb), hh, restTrace_nil, List.append_nil,
      List.append_nil]
    obtain ⟨m1, m2⟩ := mulNode_size i1 (packedWords w (2 ^ j * b) (2 ^ j * b)) (packedWords w (2 ^ j * b) (2 ^ j * b)) (packedWords w (2 ^ j * b) (2 ^ j * b))
    obtain ⟨a1, a2⟩ := addmulNode_size i1 i2 (packedWords w (2 ^ j * b) (2 ^ j * b)) (packedWords w (2 ^ j * b) (2 ^ j * b)) (packedWords w (2 ^ j * b) (2 ^ j * b))
    have q : packedWords w b b ≤ 4 ^ j * packedWords w b b := Nat.le_mul_of_pos_left _ (by positivity)
    have q2 : (2 * 4 ^ j + 1) * packedWords w b b = 2 * (4 ^ j * packedWords w b b) + packedWords w b b := by ring
    have q3 : (2 * 4 ^ (j + 1) + 1) * packedWords w b b = 8 * (4 ^ j * packedWords w b b) + packedWords w b b := by ring
    have q4 : 4 ^ (j + 1) * packedWords w b b = 4 * (4 ^ j * packedWords w b b) := by ring
    rw [packedWords_pow h64] at m1 m2 a1 a2 ⊢
    rw [q2] at i3
    refine ⟨m1, a1, ?_, ?_⟩
    · rw [m2, q3]; omega
    · rw [a2, q4]; omega

/-! ### karatsuba.c, mzd_slice.h, conversion.h -/

/-- the temporaries of Karatsuba's formulas -/
def karaTrace (d m k n : Nat) : List Event :=
  if d = 2 then [.get (gf2Words m k), .get (gf2Words k n), .put (gf2Words m k), .put (gf2Words k n), .get (gf2Words m n), .put (gf2Words m n)]
  else [.get (gf2Words m n), .get (gf2Words m k), .get (gf2Words k n), .put (gf2Words m n), .put (gf2Words m k), .put (gf2Words k n)]

theorem ptrKara_traces {d : Nat} (ff : Option Gf2e) (m k n : Nat) (X A B : Nat → Nat → Nat → Word) :
    Traces (ptrAddmulKaratsubaT d ff m k n X A B) (ptrAddmulKaratsuba? d ff m k n X A B) (karaTrace d m k n) := by
  unfold ptrAddmulKaratsubaT karaTrace
  by_cases hd : d = 2
  · rw [if_pos hd, if_pos hd]
    subst hd
    exact traces_before (traces_get _) (traces_before (traces_get _) (traces_before (traces_put _) (traces_before (traces_put _) (traces_before (traces_get _)
      (Traces.congr (traces_after (traces_inPlace _) (traces_put _)) (List.nil_append _))))))
  · rw [if_neg hd, if_neg hd]
    refine traces_before (traces_get _) (traces_before (traces_get _) (traces_before (traces_get _) ?_))
    exact Traces.congr (traces_after (traces_inPlace _) (traces_before (traces_put _) (traces_before (traces_put _) (traces_put _)))) (List.nil_append _)

theorem sliceKara_traces (C A B : Slice) (h2 : 2 ≤ A.ff.degree) (h16 : A.ff.degree ≤ 16) :
    Traces (mzdSliceAddmulKaraT C A B) (mzdSliceAddmulKara? C A B) (karaTrace A.ff.degree A.nrows A.ncols B.ncols) := by
  unfold mzdSliceAddmulKaraT mzdSliceAddmulKara?
  rw [if_pos ⟨h2, h16⟩, if_pos ⟨h2, h16⟩]
  exact traces_map (ptrKara_traces _ _ _ _ _ _ _) _

theorem karaTrace_size (d m k n : Nat) : inUse (karaTrace d m k n) = 0 ∧
    peak (karaTrace d m k n) = ((if d = 2 then max (gf2Words m k + gf2Words k n) (gf2Words m n) else gf2Words m n + gf2Words m k + gf2Words k n : Nat) : Int) := by
  unfold karaTrace
  split_ifs <;> simp only [inUse_cons, inUse_nil, peak_cons, peak_nil, Event.delta] <;> constructor <;> omega

end M4rie
