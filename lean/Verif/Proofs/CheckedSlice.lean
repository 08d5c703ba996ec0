import Verif.Model.CheckedSlice
import Verif.Proofs.CheckedRec
import Verif.Proofs.CheckedCling
import Verif.Proofs.KaraMul
import Verif.Proofs.SliceRow

/-! The checked operations on slices do what the total ones do. -/

namespace M4rie.Chk
open M4rie M4rie.Spec

/-- target `t` exists in an array of `d` matrices, after reduction -/
def TOk (ff : Option Gf2e) (d t : Nat) : Prop :=
  match ff with
  | none => t < d
  | some ff => ff.degree ≤ d ∧ ff.degree ≤ 16 ∧ t < 2 * ff.degree - 1

section ptr
variable {d m k n : Nat}

theorem get_eq {t : Nat} (X : Nat → Nat → Nat → Word) (h : t < d) : (⟨d, m, n, X⟩ : Arr).get t = some ⟨m, n, X t⟩ := by
  unfold Arr.get; rw [need_eq h]; rfl
theorem put_eq {t : Nat} (X : Nat → Nat → Nat → Word) (P : Nat → Nat → Word) (h : t < d) : (⟨d, m, n, X⟩ : Arr).put t ⟨m, n, P⟩ = some ⟨d, m, n, setSlice X t P⟩ := by
  unfold Arr.put; rw [need_eq ⟨h, rfl, rfl⟩]; rfl
theorem padd_eq (C A B : Nat → Nat → Word) : padd ⟨m, n, C⟩ ⟨m, n, A⟩ ⟨m, n, B⟩ = some ⟨m, n, mzdAdd m n C A B⟩ := by
  unfold padd; rw [need_eq ⟨rfl, rfl, rfl, rfl⟩]; rfl
theorem pmul_eq (C A B : Nat → Nat → Word) : pmul ⟨m, n, C⟩ ⟨m, k, A⟩ ⟨k, n, B⟩ = some ⟨m, n, mzdMul m k n C A B⟩ := by
  unfold pmul; rw [need_eq ⟨rfl, rfl, rfl⟩]; rfl
theorem paddmul_eq (C A B : Nat → Nat → Word) : paddmul ⟨m, n, C⟩ ⟨m, k, A⟩ ⟨k, n, B⟩ = some ⟨m, n, mzdAddmul m k n C A B⟩ := by
  unfold paddmul; rw [need_eq ⟨rfl, rfl, rfl⟩]; rfl

theorem addAt_eq {t : Nat} (X : Nat → Nat → Nat → Word) (P : Nat → Nat → Word) (h : t < d) :
    addAt ⟨d, m, n, X⟩ t ⟨m, n, P⟩ = some ⟨d, m, n, setSlice X t (mzdAdd m n (X t) (X t) P)⟩ := by
  unfold addAt Arr.get padd Arr.put
  rw [need_eq h, Option.bind_some, Option.bind_some, need_eq ⟨rfl, rfl, rfl, rfl⟩, Option.bind_some, Option.bind_some, need_eq ⟨h, rfl, rfl⟩]
  rfl

theorem forC_map {σ τ : Type} (e : σ → τ) (f : Nat → τ → Option τ) (g : Nat → σ → σ) : ∀ n, (∀ i s, i < n → f i (e s) = some (e (g i s))) → ∀ s,
    forC f n (e s) = some (e (forN g n s)) := by
  intro n
  induction n with
  | zero => intro _ s; rfl
  | succ n ih =>
    intro h s
    show (forC f n (e s)).bind (f n) = _
    rw [ih (fun i s hi => h i s (by omega)), Option.bind_some, h n _ (by omega)]
    rfl

theorem ptrAddModred_eq {ff : Option Gf2e} {t : Nat} (h : TOk ff d t) (X : Nat → Nat → Nat → Word) (P : Nat → Nat → Word) :
    ptrAddModred ff ⟨m, n, P⟩ ⟨d, m, n, X⟩ t = (M4rie.ptrAddModred ff m n P X t).map fun x => ⟨d, m, n, x⟩ := by
  unfold ptrAddModred M4rie.ptrAddModred
  simp only []
  by_cases hz : mzdIsZero m n P = true
  · rw [if_pos hz, if_pos hz]; rfl
  rw [if_neg hz, if_neg hz]
  cases ff with
  | none => exact addAt_eq X P h
  | some ff =>
    obtain ⟨h1, h2, h3⟩ := h
    simp only []
    by_cases ht : t < ff.degree
    · rw [if_pos ht, if_pos ht]; exact addAt_eq X P (by omega)
    rw [if_neg ht, if_neg ht, if_neg (by omega), need_eq h3, Option.bind_some]
    refine forC_map (fun x => (⟨d, m, n, x⟩ : Arr)) _ _ _ ?_ X
    intro i s hi
    have hp : 2 ^ i < 2 ^ 31 := Nat.pow_lt_pow_right (by decide) (by omega)
    rw [int_eq hp, Option.bind_some]
    by_cases hb : ff.powGen t &&& twoPow i ≠ 0#64
    · rw [if_pos hb, if_pos hb]; exact addAt_eq s P (by omega)
    · rw [if_neg hb, if_neg hb]

theorem foldlM_map {α σ τ : Type} (e : σ → τ) (f : τ → α → Option τ) (g : σ → α → Option σ) : ∀ l : List α, (∀ s a, a ∈ l → f (e s) a = (g s a).map e) → ∀ s,
    l.foldlM f (e s) = (l.foldlM g s).map e := by
  intro l
  induction l with
  | nil => intro _ s; rfl
  | cons a l ih =>
    intro h s
    rw [List.foldlM_cons, List.foldlM_cons, h s a (by simp)]
    show ((g s a).map e).bind _ = ((g s a).bind _).map e
    cases g s a with
    | none => rfl
    | some b => exact ih (fun s c hc => h s c (by simp [hc])) b

theorem ptrAddToAll_eq {ff : Option Gf2e} {ts : List Nat} (h : ∀ t ∈ ts, TOk ff d t) (X : Nat → Nat → Nat → Word) (P : Nat → Nat → Word) :
    ptrAddToAll ff ⟨m, n, P⟩ ts ⟨d, m, n, X⟩ = (M4rie.ptrAddToAll ff m n P ts X).map fun x => ⟨d, m, n, x⟩ := by
  unfold ptrAddToAll M4rie.ptrAddToAll
  cases ff with
  | some ff =>
    exact foldlM_map (fun x => (⟨d, m, n, x⟩ : Arr)) _ _ ts (fun s t ht => ptrAddModred_eq (h t ht) s P) X
  | none =>
    simp only []
    have : ∀ (ts : List Nat) (X : Nat → Nat → Nat → Word), (∀ t ∈ ts, t < d) → ts.foldlM (fun X t => addAt X t ⟨m, n, P⟩) (⟨d, m, n, X⟩ : Arr) =
        some ⟨d, m, n, ts.foldl (fun X t => setSlice X t (mzdAdd m n (X t) (X t) P)) X⟩ := by
      intro ts
      induction ts with
      | nil => intro X _; rfl
      | cons t ts ih =>
        intro X h
        rw [List.foldlM_cons, addAt_eq X P (h t (by simp))]
        exact ih _ fun t ht => h t (by simp [ht])
    exact this ts X h

theorem karaOperand_eq (A : Nat → Nat → Nat → Word) {l : List Nat} (h0 : l ≠ []) (h : ∀ i ∈ l, i < d) :
    karaOperand ⟨m, n, fun _ _ => 0#64⟩ ⟨d, m, n, A⟩ l = some ⟨m, n, M4rie.karaOperand m n A l⟩ := by
  match l, h0, h with
  | [i], _, h =>
    show (need (i < d)).bind _ = _
    rw [need_eq (h i (by simp))]; rfl
  | i :: j :: l, _, h =>
    show ((need (i < d)).bind _).bind _ = _
    rw [need_eq (h i (by simp)), Option.bind_some, Option.bind_some]
    show ((need (j < d)).bind _).bind _ = _
    rw [need_eq (h j (by simp)), Option.bind_some, Option.bind_some]
    show ((need _).bind _).bind _ = _
    rw [need_eq ⟨rfl, rfl, rfl, rfl⟩, Option.bind_some, Option.bind_some]
    simp only [M4rie.karaOperand]
    have : ∀ (l : List Nat) (T : Nat → Nat → Word), (∀ i ∈ l, i < d) →
        l.foldlM (fun T k => ((⟨d, m, n, A⟩ : Arr).get k).bind fun c => padd T T c) (⟨m, n, T⟩ : Pl) = some ⟨m, n, l.foldl (fun T k => mzdAdd m n T T (A k)) T⟩ := by
      intro l
      induction l with
      | nil => intro T _; rfl
      | cons t ts ih =>
        intro T h
        rw [List.foldlM_cons]
        have e : (((⟨d, m, n, A⟩ : Arr).get t).bind fun c => padd ⟨m, n, T⟩ ⟨m, n, T⟩ c) = some ⟨m, n, mzdAdd m n T T (A t)⟩ := by
          show ((need (t < d)).bind _).bind _ = _
          rw [need_eq (h t (by simp)), Option.bind_some, Option.bind_some]
          show (need _).bind _ = _
          rw [need_eq ⟨rfl, rfl, rfl, rfl⟩]; rfl
        rw [e]
        exact ih _ fun t ht => h t (by simp [ht])
    exact this l _ fun i hi => h i (by simp [hi])

theorem karaTerm_eq {ff : Option Gf2e} {d' : Nat} (X A B : Nat → Nat → Nat → Word) {t : KaraTerm} (h : t.as ≠ [] ∧ t.bs ≠ [] ∧ (∀ a ∈ t.as, a < d) ∧ (∀ b ∈ t.bs, b < d))
    (ht : ∀ c ∈ t.targets, TOk ff d' c) :
    karaTerm ff ⟨d, m, k, A⟩ ⟨d, k, n, B⟩ ⟨d', m, n, X⟩ t = (t.run ff m k n A B X).map fun x => ⟨d', m, n, x⟩ := by
  unfold karaTerm KaraTerm.run
  simp only []
  rw [karaOperand_eq A h.1 h.2.2.1, Option.bind_some, karaOperand_eq B h.2.1 h.2.2.2, Option.bind_some]
  show ((need _).bind _).bind _ = _
  rw [need_eq ⟨rfl, rfl, rfl⟩, Option.bind_some, Option.bind_some]
  exact ptrAddToAll_eq ht X _

theorem karaRun_eq {ff : Option Gf2e} {d' : Nat} {terms : List KaraTerm} (h : karaCheck d terms = true) (ht : ∀ t, t < 2 * d - 1 → TOk ff d' t) (X A B : Nat → Nat → Nat → Word) :
    karaRun terms ff ⟨d', m, n, X⟩ ⟨d, m, k, A⟩ ⟨d, k, n, B⟩ = (M4rie.karaRun terms ff m k n X A B).map fun x => ⟨d', m, n, x⟩ := by
  refine foldlM_map (fun x => (⟨d', m, n, x⟩ : Arr)) _ _ terms (fun s t hm => ?_) X
  have := karaCheck_ok h hm
  exact karaTerm_eq s A B ⟨this.1, this.2.1, this.2.2.1, this.2.2.2.1⟩ fun c hc => ht c (this.2.2.2.2 c hc)

theorem karaCheck2' : karaTerms2.all (fun t => !t.as.isEmpty && !t.bs.isEmpty && t.as.all (· < 2) && t.bs.all (· < 2) && t.targets.all (· < 3)) = true := by decide

theorem kara2Terms_eq {ff : Option Gf2e} {d' : Nat} (ht : ∀ t, t < 3 → TOk ff d' t) (X A B : Nat → Nat → Nat → Word) :
    karaRun karaTerms2 ff ⟨d', m, n, X⟩ ⟨2, m, k, A⟩ ⟨2, k, n, B⟩ = (M4rie.karaRun karaTerms2 ff m k n X A B).map fun x => ⟨d', m, n, x⟩ := by
  refine foldlM_map (fun x => (⟨d', m, n, x⟩ : Arr)) _ _ karaTerms2 (fun s t hm => ?_) _
  have := List.all_eq_true.1 karaCheck2' t hm
  simp only [Bool.and_eq_true, Bool.not_eq_true', List.isEmpty_eq_false_iff, List.all_eq_true, decide_eq_true_eq] at this
  obtain ⟨⟨⟨⟨h1, h2⟩, h3⟩, h4⟩, h5⟩ := this
  exact karaTerm_eq s A B ⟨h1, h2, h3, h4⟩ fun c hc => ht c (h5 c hc)

theorem kara2Run_eq {ff : Option Gf2e} {d' : Nat} (hd : 1 < d') (ht : ∀ t, t < 3 → TOk ff d' t) (X A B : Nat → Nat → Nat → Word) :
    kara2Run ff ⟨d', m, n, X⟩ ⟨2, m, k, A⟩ ⟨2, k, n, B⟩ = (M4rie.kara2Run ff m k n X A B).map fun x => ⟨d', m, n, x⟩ := by
  unfold kara2Run M4rie.kara2Run
  rw [get_eq A (by decide), Option.bind_some, get_eq A (by decide), Option.bind_some, get_eq B (by decide), Option.bind_some, get_eq B (by decide), Option.bind_some, get_eq X hd,
    Option.bind_some, padd_eq, Option.bind_some, padd_eq, Option.bind_some, paddmul_eq, Option.bind_some, put_eq _ _ hd, Option.bind_some]
  exact kara2Terms_eq ht _ A B

theorem ptrAddmulKaratsuba_eq {ff : Option Gf2e} {d' : Nat} (h2 : 2 ≤ d) (h16 : d ≤ 16) (hd : 1 < d') (ht : ∀ t, t < 2 * d - 1 → TOk ff d' t) (X A B : Nat → Nat → Nat → Word) :
    ptrAddmulKaratsuba d ff ⟨d', m, n, X⟩ ⟨d, m, k, A⟩ ⟨d, k, n, B⟩ = (ptrAddmulKaratsuba? d ff m k n X A B).map fun x => ⟨d', m, n, x⟩ := by
  unfold ptrAddmulKaratsuba ptrAddmulKaratsuba?
  rw [need_eq ⟨Nat.le_refl _, Nat.le_refl _⟩, Option.bind_some]
  have hc : d = 2 ∨ d = 3 ∨ d = 4 ∨ d = 5 ∨ d = 6 ∨ d = 7 ∨ d = 8 ∨ d = 9 ∨ d = 10 ∨ d = 11 ∨ d = 12 ∨ d = 13 ∨ d = 14 ∨ d = 15 ∨ d = 16 := by omega
  rcases hc with rfl | rfl | rfl | rfl | rfl | rfl | rfl | rfl | rfl | rfl | rfl | rfl | rfl | rfl | rfl
  · exact kara2Run_eq hd ht X A B
  · exact karaRun_eq karaCheck3 ht X A B
  · exact karaRun_eq karaCheck4 ht X A B
  · exact karaRun_eq karaCheck5 ht X A B
  · exact karaRun_eq karaCheck6 ht X A B
  · exact karaRun_eq karaCheck7 ht X A B
  · exact karaRun_eq karaCheck8 ht X A B
  · exact karaRun_eq karaCheck9 ht X A B
  · exact karaRun_eq karaCheck10 ht X A B
  · exact karaRun_eq karaCheck11 ht X A B
  · exact karaRun_eq karaCheck12 ht X A B
  · exact karaRun_eq karaCheck13 ht X A B
  · exact karaRun_eq karaCheck14 ht X A B
  · exact karaRun_eq karaCheck15 ht X A B
  · exact karaRun_eq karaCheck16 ht X A B

end ptr

end M4rie.Chk
