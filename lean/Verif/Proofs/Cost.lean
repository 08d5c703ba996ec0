import Verif.Model.Cost
import Verif.Proofs.StrassenRec
import Mathlib.Tactic.Ring
import Mathlib.Tactic.Linarith
import Mathlib.Algebra.Order.Ring.Nat

/-! # Logs of products: proofs -/

namespace M4rie
open Spec

variable {α β : Type}

theorem logs_pure (a : α) : Logs (pure a) (some a) [] := fun s => by simp [pure, StateT.pure]

theorem logs_quietly (o : Option α) : Logs (quietly o) o [] := fun s => by simp [quietly]

theorem logs_product (p : Product) : Logs (logProduct p) (some ()) [p] := fun _ => rfl

theorem logs_bind {x : Logged α} {o : Option α} {l l' : List Product} {f : α → Logged β} {g : α → Option β} (hx : Logs x o l)
    (hf : ∀ a, o = some a → Logs (f a) (g a) l') : Logs (x >>= f) (o.bind g) (l ++ l') := by
  intro s
  show (x s).bind (fun p => f p.1 p.2) = _
  rw [hx s]
  cases o with
  | none => rfl
  | some a =>
    show f a (s ++ l) = _
    rw [hf a rfl (s ++ l), List.append_assoc]
    rfl

theorem logs_map {x : Logged α} {o : Option α} {l : List Product} (hx : Logs x o l) (f : α → β) : Logs (x >>= fun a => pure (f a)) (o.map f) l := by
  have := logs_bind hx (f := fun a => pure (f a)) (g := fun a => some (f a)) fun a _ => logs_pure (f a)
  rw [List.append_nil] at this
  rwa [Option.map_eq_bind]

theorem Logs.congr {x : Logged α} {o : Option α} {l l' : List Product} (h : Logs x o l) (e : l = l') : Logs x o l' := e ▸ h

/-- an entry, then a computation -/
theorem logs_then {x : Logged α} {o : Option α} {l : List Product} (p : Product) (h : Logs x o l) : Logs (logProduct p >>= fun _ => x) o (p :: l) :=
  logs_bind (logs_product p) (g := fun _ => o) fun _ _ => h

/-! ### karatsuba.c -/

theorem karaTerm_logs (ff : Option Gf2e) (m k n : Nat) (A B X : Nat → Nat → Nat → Word) (t : KaraTerm) :
    Logs (t.runL ff m k n A B X) (t.run ff m k n A B X) [.gf2 m k n] := logs_then _ (logs_quietly _)

theorem karaRun_logs (ff : Option Gf2e) (m k n : Nat) (A B : Nat → Nat → Nat → Word) : ∀ (terms : List KaraTerm) (X : Nat → Nat → Nat → Word),
    Logs (karaRunL terms ff m k n X A B) (karaRun terms ff m k n X A B) (List.replicate terms.length (.gf2 m k n))
  | [], X => logs_pure X
  | t :: ts, X => by
    unfold karaRunL karaRun
    rw [List.foldlM_cons, List.foldlM_cons]
    exact Logs.congr (logs_bind (karaTerm_logs ff m k n A B X t) fun X' _ => karaRun_logs ff m k n A B ts X') rfl

theorem ptrKara_logs {d : Nat} (h2 : 2 ≤ d) (h16 : d ≤ 16) (ff : Option Gf2e) (m k n : Nat) (X A B : Nat → Nat → Nat → Word) :
    Logs (ptrAddmulKaratsubaL d ff m k n X A B) (ptrAddmulKaratsuba? d ff m k n X A B) (List.replicate (documentedProducts d) (.gf2 m k n)) := by
  have h := fun ts => karaRun_logs ff m k n A B ts X
  interval_cases d
  · exact logs_then (.gf2 m k n) (karaRun_logs ff m k n A B karaTerms2 _)
  · exact h karaTerms3
  · exact h karaTerms4
  · exact h karaTerms5
  · exact h karaTerms6
  · exact h karaTerms7
  · exact h karaTerms8
  · exact h karaTerms9
  · exact h karaTerms10
  · exact h karaTerms11
  · exact h karaTerms12
  · exact h karaTerms13
  · exact h karaTerms14
  · exact h karaTerms15
  · exact h karaTerms16

theorem forN_logs (f : Nat → α → Logged α) (g : Nat → α → Option α) (l : List Product) (h : ∀ i a, Logs (f i a) (g i a) l) :
    ∀ n a, Logs (forNL f n a) (forNM g n a) (List.replicate n l).flatten
  | 0, a => logs_pure a
  | n + 1, a => Logs.congr (logs_bind (forN_logs f g l h n a) fun b _ => h n b) (by
      rw [List.replicate_succ', List.flatten_append]; simp)

theorem sliceNaive_logs (C A B : Slice) : Logs (mzdSliceAddmulNaiveL C A B) (mzdSliceAddmulNaive? C A B)
    (List.replicate (A.ff.degree * A.ff.degree) (.gf2 A.nrows A.ncols B.ncols)) := by
  refine Logs.congr (logs_map (forN_logs _ _ (List.replicate A.ff.degree (.gf2 A.nrows A.ncols B.ncols)) (fun i x => ?_) _ _) _)
    (by rw [List.flatten_replicate_replicate])
  refine Logs.congr (forN_logs _ _ [.gf2 A.nrows A.ncols B.ncols] (fun j x => ?_) _ _) (by simp)
  exact logs_then _ (logs_quietly _)

theorem sliceKara_logs (C A B : Slice) (h2 : 2 ≤ A.ff.degree) (h16 : A.ff.degree ≤ 16) : Logs (mzdSliceAddmulKaraL C A B) (mzdSliceAddmulKara? C A B)
    (List.replicate (documentedProducts A.ff.degree) (.gf2 A.nrows A.ncols B.ncols)) := by
  unfold mzdSliceAddmulKaraL mzdSliceAddmulKara?
  rw [if_pos ⟨h2, h16⟩, if_pos ⟨h2, h16⟩]
  exact logs_map (ptrKara_logs h2 h16 _ _ _ _ _ _ _) _

/-! ### strassen.c -/

theorem onWindow_logs (C : Mzed) (lr lc hr hc : Nat) {f : Mzed → Logged Mzed} {g : Mzed → Option Mzed} {l : List Product}
    (h : Logs (f (mzedWindow C lr lc hr hc)) (g (mzedWindow C lr lc hr hc)) l) : Logs (onWindowL C lr lc hr hc f) (onWindow C lr lc hr hc g) l :=
  logs_map h _

theorem newtonJohn_logs (nj : Mzed → Mzed → Mzed → Option Mzed) (C A B : Mzed) :
    Logs (newtonJohnL nj C A B) (nj C A B) [.newtonJohn A.nrows A.ncols B.ncols] := logs_then _ (logs_quietly _)

/-- a recursive call logs `l` if it multiplies `m × k` by `k × n` over the field of `A` -/
def StepLogs (ff : Gf2e) (mulL : Mzed → Mzed → Mzed → Logged Mzed) (mul : Mzed → Mzed → Mzed → Option Mzed) (m k n : Nat) (l : List Product) : Prop :=
  ∀ C A B, A.w = degreeToW ff.degree → A.ff = ff → C.nrows = m → C.ncols = n → A.nrows = m → A.ncols = k → B.ncols = n → Logs (mulL C A B) (mul C A B) l

theorem mulStep_logs {A : Mzed} {mulL : Mzed → Mzed → Mzed → Logged Mzed} {mul : Mzed → Mzed → Mzed → Option Mzed} {m k n : Nat}
    {l : List Product} (h : StepLogs A.ff mulL mul m k n l) (C B : Mzed) :
    Logs (strassenMulStepL mulL C A B m k n) (strassenMulStep mul C A B m k n) (List.replicate 7 l).flatten := by
  unfold strassenMulStepL strassenMulStep
  have two : ∀ x : Nat, 2 * x - x = x := fun x => by omega
  have call : ∀ (C D E : Mzed) (lr lc hr hc : Nat), D.w = degreeToW A.ff.degree → D.ff = A.ff → hr - lr = m → hc - lc = n → D.nrows = m → D.ncols = k →
      E.ncols = n → Logs (onWindowL C lr lc hr hc fun W => mulL W D E) (onWindow C lr lc hr hc fun W => mul W D E) l :=
    fun C D E lr lc hr hc h1 h2 h3 h4 h5 h6 h7 => onWindow_logs C lr lc hr hc (h _ D E h1 h2 h3 h4 h5 h6 h7)
  have add : ∀ (C : Mzed) (lr lc hr hc : Nat) (f : Mzed → Mzed), Logs (onWindowL C lr lc hr hc fun W => pure (f W))
      (onWindow C lr lc hr hc fun W => some (f W)) [] := fun C lr lc hr hc f => onWindow_logs C lr lc hr hc (logs_pure _)
  refine Logs.congr (l := l ++ (l ++ (l ++ (l ++ ([] ++ (l ++ ([] ++ ([] ++ ([] ++ (l ++ ([] ++ ([] ++ (l ++ []))))))))))))) ?_ (by
    simp [List.replicate_succ])
  refine logs_bind (call _ _ _ _ _ _ _ rfl rfl (two m) rfl rfl rfl rfl) fun C1 _ => ?_
  refine logs_bind (call _ _ _ _ _ _ _ rfl rfl (two m) (two n) rfl rfl rfl) fun C2 _ => ?_
  refine logs_bind (call _ _ _ _ _ _ _ rfl rfl rfl rfl rfl rfl rfl) fun C3 _ => ?_
  refine logs_bind (call _ _ _ _ _ _ _ rfl rfl rfl (two n) rfl rfl (two n)) fun C4 _ => ?_
  refine logs_bind (add _ _ _ _ _ _) fun C5 _ => ?_
  refine logs_bind (h _ _ _ rfl rfl rfl rfl rfl (two k) rfl) fun W _ => ?_
  refine logs_bind (add _ _ _ _ _ _) fun C6 _ => ?_
  refine logs_bind (add _ _ _ _ _ _) fun C7 _ => ?_
  refine logs_bind (add _ _ _ _ _ _) fun C8 _ => ?_
  refine logs_bind (call _ _ _ _ _ _ _ rfl rfl (two m) rfl (two m) rfl rfl) fun C9 _ => ?_
  refine logs_bind (add _ _ _ _ _ _) fun C10 _ => ?_
  refine logs_bind (add _ _ _ _ _ _) fun C11 _ => ?_
  refine logs_bind (call _ _ _ _ _ _ _ rfl rfl rfl rfl rfl rfl rfl) fun C12 _ => ?_
  exact add _ _ _ _ _ _

theorem addmulStep_logs {A : Mzed} {mulL addmulL : Mzed → Mzed → Mzed → Logged Mzed} {mul addmul : Mzed → Mzed → Mzed → Option Mzed}
    {m k n : Nat} {l : List Product} (h : StepLogs A.ff mulL mul m k n l) (h' : StepLogs A.ff addmulL addmul m k n l)
    (hd : ∀ C A B R, mul C A B = some R → R.nrows = C.nrows ∧ R.ncols = C.ncols)
    (hd' : ∀ C A B R, addmul C A B = some R → R.nrows = C.nrows ∧ R.ncols = C.ncols) (C B : Mzed) :
    Logs (strassenAddmulStepL mulL addmulL C A B m k n) (strassenAddmulStep mul addmul C A B m k n) (List.replicate 7 l).flatten := by
  unfold strassenAddmulStepL strassenAddmulStep
  have two : ∀ x : Nat, 2 * x - x = x := fun x => by omega
  have call : ∀ (C D E : Mzed) (lr lc hr hc : Nat), D.w = degreeToW A.ff.degree → D.ff = A.ff → hr - lr = m → hc - lc = n → D.nrows = m → D.ncols = k →
      E.ncols = n → Logs (onWindowL C lr lc hr hc fun W => addmulL W D E) (onWindow C lr lc hr hc fun W => addmul W D E) l :=
    fun C D E lr lc hr hc h1 h2 h3 h4 h5 h6 h7 => onWindow_logs C lr lc hr hc (h' _ D E h1 h2 h3 h4 h5 h6 h7)
  have add : ∀ (C : Mzed) (lr lc hr hc : Nat) (f : Mzed → Mzed), Logs (onWindowL C lr lc hr hc fun W => pure (f W))
      (onWindow C lr lc hr hc fun W => some (f W)) [] := fun C lr lc hr hc f => onWindow_logs C lr lc hr hc (logs_pure _)
  refine Logs.congr (l := l ++ ([] ++ ([] ++ (l ++ ([] ++ (l ++ (l ++ ([] ++ (l ++ (l ++ (l ++ ([] ++ []))))))))))))  ?_ (by
    simp [List.replicate_succ])
  refine logs_bind (h _ _ _ rfl rfl rfl rfl rfl rfl rfl) fun U eU => ?_
  obtain ⟨u1, u2⟩ := hd _ _ _ _ eU
  refine logs_bind (add _ _ _ _ _ _) fun C1 _ => ?_
  refine logs_bind (add _ _ _ _ _ _) fun C2 _ => ?_
  refine logs_bind (h _ _ _ rfl rfl u1 u2 rfl (two k) rfl) fun U' eU' => ?_
  obtain ⟨v1, v2⟩ := hd _ _ _ _ eU'
  refine logs_bind (add _ _ _ _ _ _) fun C3 _ => ?_
  refine logs_bind (call _ _ _ _ _ _ _ rfl rfl rfl rfl rfl rfl rfl) fun C4 _ => ?_
  refine logs_bind (h' _ _ _ rfl rfl (v1.trans u1) (v2.trans u2) rfl rfl rfl) fun U'' eU'' => ?_
  obtain ⟨w1, w2⟩ := hd' _ _ _ _ eU''
  refine logs_bind (add _ _ _ _ _ _) fun C5 _ => ?_
  refine logs_bind (call _ _ _ _ _ _ _ rfl rfl rfl (two n) rfl rfl (two n)) fun C6 _ => ?_
  refine logs_bind (call _ _ _ _ _ _ _ rfl rfl (two m) rfl (two m) rfl rfl) fun C7 _ => ?_
  refine logs_bind (h' _ _ _ rfl rfl (w1.trans (v1.trans u1)) (w2.trans (v2.trans u2)) rfl rfl rfl) fun U3 _ => ?_
  refine logs_bind (add _ _ _ _ _ _) fun C8 _ => ?_
  exact add _ _ _ _ _ _

/-- the products for the remaining rows and columns -/
def restLog (m k n m2 k2 n2 : Nat) : List Product :=
  (if n > n2 then [.newtonJohn m k (n - n2)] else []) ++ ((if m > m2 then [.newtonJohn (m - m2) k n2] else []) ++
    if k > k2 then [.newtonJohn m2 (k - k2) n2] else [])

theorem rest_logs (nj : Mzed → Mzed → Mzed → Option Mzed) (clear : Bool) (C A B : Mzed) (m k n m2 k2 n2 : Nat) (hm : A.nrows = m) (hk : A.ncols = k) :
    Logs (strassenRestL nj clear C A B m k n m2 k2 n2) (strassenRest nj clear C A B m k n m2 k2 n2) (restLog m k n m2 k2 n2) := by
  unfold strassenRestL strassenRest restLog
  refine logs_bind ?_ fun C1 _ => logs_bind ?_ fun C2 _ => ?_
  · by_cases h : n > n2
    · rw [if_pos h, if_pos h, if_pos h]
      exact Logs.congr (onWindow_logs _ _ _ _ _ (newtonJohn_logs nj _ _ _)) (by rw [hm, hk]; rfl)
    · rw [if_neg h, if_neg h, if_neg h]
      exact logs_pure C
  · by_cases h : m > m2
    · rw [if_pos h, if_pos h, if_pos h]
      exact Logs.congr (onWindow_logs _ _ _ _ _ (newtonJohn_logs nj _ _ _)) rfl
    · rw [if_neg h, if_neg h, if_neg h]
      exact logs_pure C1
  · by_cases h : k > k2
    · rw [if_pos h, if_pos h, if_pos h]
      exact Logs.congr (onWindow_logs _ _ _ _ _ (newtonJohn_logs nj _ _ _)) rfl
    · rw [if_neg h, if_neg h, if_neg h]
      exact logs_pure C2

/-- the products made by the recursion -/
def strassenLog (w : Nat) (cutoff : Int) : Nat → Nat → Nat → Nat → List Product
  | 0, _, _, _ => []
  | fuel + 1, m, k, n =>
    if m = 0 ∧ n = 0 then []
    else if strassenBase cutoff m k n then [.newtonJohn m k n]
    else (List.replicate 7 (strassenLog w cutoff fuel (halfDim w m) (halfDim w k) (halfDim w n))).flatten ++
      restLog m k n (2 * halfDim w m) (2 * halfDim w k) (2 * halfDim w n)

/-! ### dimensions of the results -/

theorem onWindow_dims {C R : Mzed} {lr lc hr hc : Nat} {f : Mzed → Option Mzed} (h : onWindow C lr lc hr hc f = some R) :
    R.nrows = C.nrows ∧ R.ncols = C.ncols := by
  unfold onWindow at h
  obtain ⟨W, -, rfl⟩ := Option.map_eq_some_iff.1 h
  exact ⟨rfl, rfl⟩

theorem bind_dims {C : Mzed} {o : Option Mzed} {f : Mzed → Option Mzed} (ho : ∀ R, o = some R → R.nrows = C.nrows ∧ R.ncols = C.ncols)
    (hf : ∀ D R, D.nrows = C.nrows ∧ D.ncols = C.ncols → f D = some R → R.nrows = C.nrows ∧ R.ncols = C.ncols) :
    ∀ R, o.bind f = some R → R.nrows = C.nrows ∧ R.ncols = C.ncols := by
  intro R h
  obtain ⟨D, hD, hR⟩ := Option.bind_eq_some_iff.1 h
  exact hf D R (ho D hD) hR

theorem trans_dims {C D R : Mzed} (h : D.nrows = C.nrows ∧ D.ncols = C.ncols) (h' : R.nrows = D.nrows ∧ R.ncols = D.ncols) :
    R.nrows = C.nrows ∧ R.ncols = C.ncols := ⟨h'.1.trans h.1, h'.2.trans h.2⟩

theorem copy_dims {C B R : Mzed} (h : mzedCopy? C B = some R) : R.nrows = C.nrows ∧ R.ncols = C.ncols := by
  unfold mzedCopy? at h
  split_ifs at h
  cases h
  exact ⟨rfl, rfl⟩

/-- an update of a window of `C`, then something that keeps the dimensions -/
theorem window_bind_dims {C D R : Mzed} {lr lc hr hc : Nat} {f g : Mzed → Option Mzed} (hD : D.nrows = C.nrows ∧ D.ncols = C.ncols)
    (hg : ∀ D, D.nrows = C.nrows ∧ D.ncols = C.ncols → g D = some R → R.nrows = C.nrows ∧ R.ncols = C.ncols)
    (h : (onWindow D lr lc hr hc f).bind g = some R) : R.nrows = C.nrows ∧ R.ncols = C.ncols := by
  obtain ⟨E, hE, hR⟩ := Option.bind_eq_some_iff.1 h
  exact hg E (trans_dims hD (onWindow_dims hE)) hR

theorem mulStep_dims {mul : Mzed → Mzed → Mzed → Option Mzed} {C A B R : Mzed} {m k n : Nat} (h : strassenMulStep mul C A B m k n = some R) :
    R.nrows = C.nrows ∧ R.ncols = C.ncols := by
  unfold strassenMulStep at h
  refine window_bind_dims ⟨rfl, rfl⟩ (fun D1 h1 h => ?_) h
  refine window_bind_dims h1 (fun D2 h2 h => ?_) h
  refine window_bind_dims h2 (fun D3 h3 h => ?_) h
  refine window_bind_dims h3 (fun D4 h4 h => ?_) h
  refine window_bind_dims h4 (fun D5 h5 h => ?_) h
  obtain ⟨W, -, h⟩ := Option.bind_eq_some_iff.1 h
  refine window_bind_dims h5 (fun D6 h6 h => ?_) h
  refine window_bind_dims h6 (fun D7 h7 h => ?_) h
  refine window_bind_dims h7 (fun D8 h8 h => ?_) h
  refine window_bind_dims h8 (fun D9 h9 h => ?_) h
  refine window_bind_dims h9 (fun D10 h10 h => ?_) h
  refine window_bind_dims h10 (fun D11 h11 h => ?_) h
  refine window_bind_dims h11 (fun D12 h12 h => ?_) h
  exact trans_dims h12 (onWindow_dims h)

theorem addmulStep_dims {mul addmul : Mzed → Mzed → Mzed → Option Mzed} {C A B R : Mzed} {m k n : Nat}
    (h : strassenAddmulStep mul addmul C A B m k n = some R) : R.nrows = C.nrows ∧ R.ncols = C.ncols := by
  unfold strassenAddmulStep at h
  obtain ⟨U, -, h⟩ := Option.bind_eq_some_iff.1 h
  refine window_bind_dims ⟨rfl, rfl⟩ (fun D1 h1 h => ?_) h
  refine window_bind_dims h1 (fun D2 h2 h => ?_) h
  obtain ⟨U, -, h⟩ := Option.bind_eq_some_iff.1 h
  refine window_bind_dims h2 (fun D3 h3 h => ?_) h
  refine window_bind_dims h3 (fun D4 h4 h => ?_) h
  obtain ⟨U, -, h⟩ := Option.bind_eq_some_iff.1 h
  refine window_bind_dims h4 (fun D5 h5 h => ?_) h
  refine window_bind_dims h5 (fun D6 h6 h => ?_) h
  refine window_bind_dims h6 (fun D7 h7 h => ?_) h
  obtain ⟨U, -, h⟩ := Option.bind_eq_some_iff.1 h
  refine window_bind_dims h7 (fun D8 h8 h => ?_) h
  exact trans_dims h8 (onWindow_dims h)

theorem rest_dims {nj : Mzed → Mzed → Mzed → Option Mzed} {clear : Bool} {C A B R : Mzed} {m k n m2 k2 n2 : Nat}
    (h : strassenRest nj clear C A B m k n m2 k2 n2 = some R) : R.nrows = C.nrows ∧ R.ncols = C.ncols := by
  unfold strassenRest at h
  have one : ∀ {p : Prop} [Decidable p] {D E : Mzed} {lr lc hr hc : Nat} {f : Mzed → Option Mzed}, D.nrows = C.nrows ∧ D.ncols = C.ncols →
      (if p then onWindow D lr lc hr hc f else some D) = some E → E.nrows = C.nrows ∧ E.ncols = C.ncols := by
    intro p _ D E lr lc hr hc f hD h
    by_cases hp : p
    · rw [if_pos hp] at h; exact trans_dims hD (onWindow_dims h)
    · rw [if_neg hp] at h; cases h; exact hD
  obtain ⟨D1, e1, h⟩ := Option.bind_eq_some_iff.1 h
  obtain ⟨D2, e2, h⟩ := Option.bind_eq_some_iff.1 h
  exact one (one (one ⟨rfl, rfl⟩ e1) e2) h

theorem mulStrassen_dims (nj : Mzed → Mzed → Mzed → Option Mzed) (cutoff : Int) : ∀ fuel C A B R, mulStrassenF nj cutoff fuel C A B = some R →
    R.nrows = C.nrows ∧ R.ncols = C.ncols
  | 0, _, _, _, _, h => by cases h
  | fuel + 1, C, A, B, R, h => by
    unfold mulStrassenF at h
    split_ifs at h
    · cases h; exact ⟨rfl, rfl⟩
    · obtain ⟨D, -, h⟩ := Option.bind_eq_some_iff.1 h
      exact copy_dims h
    · obtain ⟨D, hD, h⟩ := Option.bind_eq_some_iff.1 h
      exact trans_dims (mulStep_dims hD) (rest_dims h)

theorem addmulStrassen_dims (nj : Mzed → Mzed → Mzed → Option Mzed) (cutoff : Int) : ∀ fuel C A B R, addmulStrassenF nj cutoff fuel C A B = some R →
    R.nrows = C.nrows ∧ R.ncols = C.ncols
  | 0, _, _, _, _, h => by cases h
  | fuel + 1, C, A, B, R, h => by
    unfold addmulStrassenF at h
    split_ifs at h
    · cases h; exact ⟨rfl, rfl⟩
    · obtain ⟨D, -, h⟩ := Option.bind_eq_some_iff.1 h
      obtain ⟨E, -, h⟩ := Option.bind_eq_some_iff.1 h
      exact copy_dims h
    · obtain ⟨D, hD, h⟩ := Option.bind_eq_some_iff.1 h
      exact trans_dims (addmulStep_dims hD) (rest_dims h)

/-! ### the recursion -/

theorem mulStrassen_logs (nj : Mzed → Mzed → Mzed → Option Mzed) (cutoff : Int) (ff : Gf2e) : ∀ fuel m k n,
    StepLogs ff (mulStrassenL nj cutoff fuel) (mulStrassenF nj cutoff fuel) m k n (strassenLog (degreeToW ff.degree) cutoff fuel m k n)
  | 0, _, _, _ => fun _ _ _ _ _ _ _ _ _ _ => logs_quietly none
  | fuel + 1, m, k, n => by
    intro C A B hw hff h1 h2 h3 h4 h5
    unfold mulStrassenL mulStrassenF strassenLog
    rw [h1, h2, h3, h4, h5, hw]
    by_cases c1 : m = 0 ∧ n = 0
    · rw [if_pos c1, if_pos c1, if_pos c1]; exact logs_pure C
    rw [if_neg c1, if_neg c1, if_neg c1]
    by_cases c2 : strassenBase cutoff m k n = true
    · rw [if_pos c2, if_pos c2, if_pos c2]
      exact Logs.congr (logs_bind (newtonJohn_logs nj _ A B) fun D _ => logs_quietly _) (by rw [h3, h4, h5]; rfl)
    rw [if_neg c2, if_neg c2, if_neg c2]
    exact logs_bind (mulStep_logs (by rw [hff]; exact mulStrassen_logs nj cutoff ff fuel _ _ _) C B) fun D _ => rest_logs nj true D A B _ _ _ _ _ _ h3 h4

theorem addmulStrassen_logs (nj : Mzed → Mzed → Mzed → Option Mzed) (cutoff : Int) (ff : Gf2e) : ∀ fuel m k n,
    StepLogs ff (addmulStrassenL nj cutoff fuel) (addmulStrassenF nj cutoff fuel) m k n (strassenLog (degreeToW ff.degree) cutoff fuel m k n)
  | 0, _, _, _ => fun _ _ _ _ _ _ _ _ _ _ => logs_quietly none
  | fuel + 1, m, k, n => by
    intro C A B hw hff h1 h2 h3 h4 h5
    unfold addmulStrassenL addmulStrassenF strassenLog
    rw [h1, h2, h3, h4, h5, hw]
    by_cases c1 : m = 0 ∧ n = 0
    · rw [if_pos c1, if_pos c1, if_pos c1]; exact logs_pure C
    rw [if_neg c1, if_neg c1, if_neg c1]
    by_cases c2 : strassenBase cutoff m k n = true
    · rw [if_pos c2, if_pos c2, if_pos c2]
      exact Logs.congr (logs_bind (logs_quietly _) fun D _ => logs_bind (newtonJohn_logs nj D A B) fun D _ => logs_quietly _) (by rw [h3, h4, h5]; rfl)
    rw [if_neg c2, if_neg c2, if_neg c2]
    exact logs_bind (addmulStep_logs (by rw [hff]; exact mulStrassen_logs nj cutoff ff fuel _ _ _)
      (by rw [hff]; exact addmulStrassen_logs nj cutoff ff fuel _ _ _) (mulStrassen_dims nj cutoff fuel) (addmulStrassen_dims nj cutoff fuel) C B)
      fun D _ => rest_logs nj false D A B _ _ _ _ _ _ h3 h4

/-! ### the size of the log -/

theorem totalSize_append (a b : List Product) : totalSize (a ++ b) = totalSize a + totalSize b := by
  unfold totalSize; rw [List.map_append, List.sum_append]

theorem totalSize_replicate (n : Nat) (l : List Product) : totalSize (List.replicate n l).flatten = n * totalSize l := by
  induction n with
  | zero => simp [totalSize]
  | succ n ih => rw [List.replicate_succ, List.flatten_cons, totalSize_append, ih]; ring

theorem totalSize_rest {m k n m2 k2 n2 : Nat} (hm : m2 ≤ m) (hk : k2 ≤ k) (hn : n2 ≤ n) :
    totalSize (restLog m k n m2 k2 n2) + m2 * k2 * n2 = m * k * n := by
  unfold restLog
  rw [totalSize_append, totalSize_append]
  obtain ⟨a, rfl⟩ := Nat.exists_eq_add_of_le hm
  obtain ⟨b, rfl⟩ := Nat.exists_eq_add_of_le hk
  obtain ⟨c, rfl⟩ := Nat.exists_eq_add_of_le hn
  have one : ∀ (x y : Nat) (p : Product), (x - y = 0 → p.size = 0) → totalSize (if x > y then [p] else []) = p.size := by
    intro x y p h
    by_cases hx : x > y
    · rw [if_pos hx]; simp [totalSize]
    · rw [if_neg hx, h (by omega)]; rfl
  rw [one _ _ _ (fun h => by simp only [Product.size]; rw [h, Nat.mul_zero]), one _ _ _ (fun h => by simp only [Product.size]; rw [h]; ring),
    one _ _ _ (fun h => by simp only [Product.size]; rw [h]; ring)]
  simp only [Product.size, Nat.add_sub_cancel_left]
  ring

theorem strassenLog_size (w : Nat) (cutoff : Int) : ∀ fuel m k n, totalSize (strassenLog w cutoff fuel m k n) ≤ m * k * n
  | 0, _, _, _ => by simp [strassenLog, totalSize]
  | fuel + 1, m, k, n => by
    unfold strassenLog
    split_ifs with h1 h2
    · simp [totalSize]
    · simp [totalSize, Product.size]
    · rw [totalSize_append, totalSize_replicate]
      have ih := strassenLog_size w cutoff fuel (halfDim w m) (halfDim w k) (halfDim w n)
      have hr := totalSize_rest (halfDim_le w m) (halfDim_le w k) (halfDim_le w n)
      have e : 2 * halfDim w m * (2 * halfDim w k) * (2 * halfDim w n) = 8 * (halfDim w m * halfDim w k * halfDim w n) := by ring
      omega

theorem strassenLog_nj (w : Nat) (cutoff : Int) : ∀ fuel m k n, ∀ p ∈ strassenLog w cutoff fuel m k n, ∃ a b c, p = Product.newtonJohn a b c
  | 0, _, _, _ => by simp [strassenLog]
  | fuel + 1, m, k, n => by
    intro p hp
    unfold strassenLog at hp
    split_ifs at hp with h1 h2
    · simp at hp
    · rw [List.mem_singleton] at hp; exact ⟨_, _, _, hp⟩
    · rw [List.mem_append] at hp
      rcases hp with hp | hp
      · obtain ⟨l, hl, hp⟩ := List.mem_flatten.1 hp
        obtain ⟨-, rfl⟩ := List.mem_replicate.1 hl
        exact strassenLog_nj w cutoff fuel _ _ _ p hp
      · unfold restLog at hp
        simp only [List.mem_append] at hp
        rcases hp with hp | hp | hp <;> split_ifs at hp <;> first | exact ⟨_, _, _, List.mem_singleton.1 hp⟩ | exact absurd hp List.not_mem_nil

/-- no remainders and exactly `j` halvings -/
theorem strassenLog_pow {w b : Nat} (hb : 0 < b) (hd : 64 / w ∣ b) : ∀ j fuel, j < fuel →
    strassenLog w (b : Int) fuel (2 ^ j * b) (2 ^ j * b) (2 ^ j * b) = List.replicate (7 ^ j) (.newtonJohn b b b) := by
  intro j
  induction j with
  | zero =>
    intro fuel hf
    obtain ⟨f, rfl⟩ : ∃ f, fuel = f + 1 := ⟨fuel - 1, by omega⟩
    unfold strassenLog
    rw [pow_zero, one_mul, if_neg (by omega), if_pos (by
      unfold strassenBase closer
      have : (((b : Int) - b).natAbs < (((b / 2 : Nat) : Int) - (b : Int)).natAbs) := by omega
      rw [decide_eq_true this]
      rfl)]
    rfl
  | succ j ih =>
    intro fuel hf
    obtain ⟨f, rfl⟩ : ∃ f, fuel = f + 1 := ⟨fuel - 1, by omega⟩
    have hp : 1 ≤ 2 ^ j := Nat.one_le_two_pow
    have e2 : 2 ^ (j + 1) * b = 2 * (2 ^ j * b) := by ring
    have hx : b ≤ 2 ^ j * b := Nat.le_mul_of_pos_left b hp
    have hh : halfDim w (2 ^ (j + 1) * b) = 2 ^ j * b := by
      unfold halfDim
      rw [e2, Nat.mul_div_cancel_left _ (by norm_num), Nat.mod_eq_zero_of_dvd (hd.mul_left _), Nat.sub_zero]
    unfold strassenLog
    rw [if_neg (by rw [e2]; omega), if_neg (by
      unfold strassenBase closer
      rw [e2, Nat.mul_div_cancel_left _ (by norm_num)]
      have : ¬ (((2 * (2 ^ j * b) : Nat) : Int) - b).natAbs < (((2 ^ j * b : Nat) : Int) - (b : Int)).natAbs := by omega
      simp only [this, decide_false, Bool.or_self]
      simp), hh, ih f (by omega)]
    have hr : restLog (2 ^ (j + 1) * b) (2 ^ (j + 1) * b) (2 ^ (j + 1) * b) (2 * (2 ^ j * b)) (2 * (2 ^ j * b)) (2 * (2 ^ j * b)) = [] := by
      unfold restLog
      rw [e2, if_neg (by omega), if_neg (by omega), if_neg (by omega)]
      rfl
    rw [hr, List.append_nil, List.flatten_replicate_replicate]
    congr 1
    ring

end M4rie
