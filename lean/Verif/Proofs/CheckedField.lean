import Verif.Model.CheckedPoly
import Verif.Proofs.CheckedBlm
import Verif.Proofs.BlmCrt

/-!
# The checked `gf2e_init` and `crt_init` do what the total models do
-/

namespace M4rie.Chk
open M4rie.Spec

/-! ### gf2e_init -/

theorem shlInt_eq {i : Nat} (h : i < 31) : shlInt i = some (twoPow i) := by unfold shlInt; rw [need_eq h]; rfl

theorem initDegree_eq (f : Word) : initDegree f = some (M4rie.initDegree f) := by
  have key : ∀ n, n ≤ 17 → forC (fun i d => (shlInt i).bind fun p => some (if p &&& f ≠ 0#64 then i else d)) n 0 = some (initDegreeLoop f n) := by
    intro n
    induction n with
    | zero => intro _; rfl
    | succ n ih =>
      intro hn
      rw [forC, ih (by omega), Option.bind_some, shlInt_eq (by omega), Option.bind_some]
      rfl
  exact key 17 le_rfl

theorem redTmp_eq (f i : Word) : ∀ j, j ≤ 64 → redTmp f i j = some (M4rie.redTmp f i j) := by
  intro j
  induction j with
  | zero => intro _; rfl
  | succ j ih =>
    intro hj
    have ih := ih (by omega)
    unfold redTmp at ih ⊢
    rw [forC, ih, Option.bind_some, shl_eq (by omega), Option.bind_some, shl_eq (by omega), Option.bind_some]
    show (if twoPow j &&& i ≠ 0#64 then _ else _) = some (if twoPow j &&& i ≠ 0#64 then _ else _)
    by_cases h : twoPow j &&& i ≠ 0#64
    · rw [if_pos h, if_pos h]
    · rw [if_neg h, if_neg h]

theorem initRed_eq (dbg : Bool) {f : Word} {e : Nat} (he : e ≤ 16) {red : Nat → Word} (h : redLoop f e (2 ^ e - 1) = some red) :
    initRed dbg f e = some red := by
  unfold initRed
  generalize 2 ^ e - 1 = n at h
  induction n generalizing red with
  | zero => exact h
  | succ n ih =>
    rw [redLoop] at h
    obtain ⟨red0, e0, h⟩ := Option.bind_eq_some_iff.1 h
    dsimp only at h
    rw [forC, ih e0, Option.bind_some, redTmp_eq _ _ _ (by omega), Option.bind_some, shr_eq (by omega), Option.bind_some]
    by_cases hc : (M4rie.redTmp f (BitVec.ofNat 64 (n + 1)) e >>> e).toNat < 2 ^ e ∧ red0 (M4rie.redTmp f (BitVec.ofNat 64 (n + 1)) e >>> e).toNat = 0#64
    · rw [if_pos hc] at h
      rw [need_eq hc.1, Option.bind_some, assert_eq hc.2, Option.bind_some, ← h]
      rfl
    · rw [if_neg hc] at h; cases h

theorem powGenLoop_eq (f : Word) {e : Nat} : ∀ n p, e + n ≤ 31 → powGenLoop f e n p = some (M4rie.powGenLoop f e n p) := by
  intro n
  induction n with
  | zero => intro p _; rfl
  | succ n ih =>
    intro p hn
    rw [powGenLoop, shlInt_eq (by omega), Option.bind_some, shl_eq (by omega), Option.bind_some, M4rie.powGenLoop]
    by_cases h : p &&& twoPow (e + n) ≠ 0#64
    · rw [if_pos h, if_pos h, Option.bind_some]; exact ih _ (by omega)
    · rw [if_neg h, if_neg h, Option.bind_some]; exact ih _ (by omega)

theorem initPowGen_eq (f : Word) {e : Nat} (h1 : 1 ≤ e) (he : e ≤ 16) (pg0 : Nat → Word) :
    initPowGen f e pg0 = some fun i => if i < 2 * e - 1 then M4rie.initPowGen f e i else pg0 i := by
  unfold initPowGen
  rw [need_eq (by omega), Option.bind_some]
  suffices H : ∀ n, n ≤ 2 * e - 1 → forC (fun i pg => (need (i < 2 * e - 1)).bind fun _ => (shlInt i).bind fun p => (powGenLoop f e (i + 1 - e) p).bind fun v =>
      some (setWord pg i v)) n pg0 = some fun i => if i < n then M4rie.initPowGen f e i else pg0 i from H _ le_rfl
  intro n
  induction n with
  | zero => intro _; rw [forC]; congr 1
  | succ n ih =>
    intro hn
    rw [forC, ih (by omega), Option.bind_some, need_eq (by omega), Option.bind_some, shlInt_eq (by omega), Option.bind_some, powGenLoop_eq _ _ _ (by omega), Option.bind_some]
    congr 1
    funext i
    unfold setWord
    by_cases hi : i = n
    · rw [if_pos hi, if_pos (by omega), hi]; rfl
    · rw [if_neg hi]
      beta_reduce
      by_cases hi' : i < n
      · rw [if_pos hi', if_pos (by omega)]
      · rw [if_neg hi', if_neg (by omega)]

theorem initMulTab_eq {e : Nat} (h1 : 1 ≤ e) (he : e ≤ 16) (red : Nat → Word) (mt0 : Nat → Nat → Word) :
    initMulTab e red mt0 = some fun a b => if a < 2 ^ e ∧ b < 2 ^ e then M4rie.initMulTab e red a b else mt0 a b := by
  have hpos : 0 < 2 ^ e := Nat.two_pow_pos e
  unfold initMulTab
  suffices H : ∀ n, n ≤ 2 ^ e - 1 → forC (fun i t => forC (fun j (t : Nat → Nat → Word) => (mul (BitVec.ofNat 64 (i + 1)) (BitVec.ofNat 64 (j + 1)) e).bind fun res =>
      (shr res e).bind fun q => (need (q.toNat < 2 ^ e ∧ i + 1 < 2 ^ e ∧ j + 1 < 2 ^ e)).bind fun _ =>
      some fun a b => if a = i + 1 ∧ b = j + 1 then res ^^^ red q.toNat else t a b) (2 ^ e - 1) t) n
      (fun a b => if a < 2 ^ e ∧ b < 2 ^ e then 0#64 else mt0 a b) =
      some fun a b => if a < 2 ^ e ∧ b < 2 ^ e then (if a ≤ n then M4rie.initMulTab e red a b else 0#64) else mt0 a b by
    rw [H _ le_rfl]
    congr 1
    funext a b
    by_cases hab : a < 2 ^ e ∧ b < 2 ^ e
    · rw [if_pos hab, if_pos hab, if_pos (by omega)]
    · rw [if_neg hab, if_neg hab]
  intro n
  induction n with
  | zero =>
    intro _
    rw [forC]
    congr 1
    funext a b
    by_cases hab : a < 2 ^ e ∧ b < 2 ^ e
    · rw [if_pos hab, if_pos hab]
      by_cases ha : a ≤ 0
      · rw [if_pos ha]; exact (if_pos (Or.inl (by omega))).symm
      · rw [if_neg ha]
    · rw [if_neg hab, if_neg hab]
  | succ n ih =>
    intro hn
    rw [forC, ih (by omega), Option.bind_some]
    suffices G : ∀ k, k ≤ 2 ^ e - 1 → forC (fun j (t : Nat → Nat → Word) => (mul (BitVec.ofNat 64 (n + 1)) (BitVec.ofNat 64 (j + 1)) e).bind fun res =>
        (shr res e).bind fun q => (need (q.toNat < 2 ^ e ∧ n + 1 < 2 ^ e ∧ j + 1 < 2 ^ e)).bind fun _ =>
        some fun a b => if a = n + 1 ∧ b = j + 1 then res ^^^ red q.toNat else t a b) k
        (fun a b => if a < 2 ^ e ∧ b < 2 ^ e then (if a ≤ n then M4rie.initMulTab e red a b else 0#64) else mt0 a b) =
        some fun a b => if a < 2 ^ e ∧ b < 2 ^ e then (if a ≤ n ∨ (a = n + 1 ∧ b ≤ k) then M4rie.initMulTab e red a b else 0#64) else mt0 a b by
      rw [G _ le_rfl]
      congr 1
      funext a b
      by_cases hab : a < 2 ^ e ∧ b < 2 ^ e
      · rw [if_pos hab, if_pos hab]
        by_cases ha : a ≤ n + 1
        · rw [if_pos ha, if_pos (by omega)]
        · rw [if_neg ha, if_neg (by omega)]
      · rw [if_neg hab, if_neg hab]
    intro k
    induction k with
    | zero =>
      intro _
      rw [forC]
      congr 1
      funext a b
      by_cases hab : a < 2 ^ e ∧ b < 2 ^ e
      · rw [if_pos hab, if_pos hab]
        by_cases ha : a ≤ n
        · rw [if_pos ha, if_pos (Or.inl ha)]
        · rw [if_neg ha]
          by_cases hb : a ≤ n ∨ (a = n + 1 ∧ b ≤ 0)
          · rw [if_pos hb]; exact (if_pos (Or.inr (by omega))).symm
          · rw [if_neg hb]
      · rw [if_neg hab, if_neg hab]
    | succ k ih2 =>
      intro hk
      have b1 := gf2xMul_elem he (BitVec.ofNat 64 (n + 1)) (BitVec.ofNat 64 (k + 1)) (by rw [ofNat_toNat_lt he (by omega)]; omega) (by rw [ofNat_toNat_lt he (by omega)]; omega)
      have b2 := shift_lt _ _ b1.2
      have em : mul (BitVec.ofNat 64 (n + 1)) (BitVec.ofNat 64 (k + 1)) e = some (gf2xMul (BitVec.ofNat 64 (n + 1)) (BitVec.ofNat 64 (k + 1)) e) := by
        rw [mul_eq]; exact if_pos ⟨h1, by omega⟩
      rw [forC, ih2 (by omega), Option.bind_some, em, Option.bind_some, shr_eq (by omega), Option.bind_some, need_eq ⟨b2, by omega, by omega⟩, Option.bind_some]
      congr 1
      funext a b
      by_cases h : a = n + 1 ∧ b = k + 1
      · rw [if_pos h, if_pos (by omega), if_pos (by omega), h.1, h.2]
        exact (if_neg (by omega)).symm
      · rw [if_neg h]
        beta_reduce
        by_cases hab : a < 2 ^ e ∧ b < 2 ^ e
        · rw [if_pos hab, if_pos hab]
          by_cases hc : a ≤ n ∨ (a = n + 1 ∧ b ≤ k)
          · rw [if_pos hc, if_pos (by omega)]
          · rw [if_neg hc, if_neg (by omega)]
        · rw [if_neg hab, if_neg hab]

/-- the field object made in memory that held `pg0`, `mt0` -/
theorem gf2eInit_eq (dbg : Bool) (pg0 : Nat → Word) (mt0 : Nat → Nat → Word) {f : Word} {e : Nat} (h : MinOK f e) :
    ∃ ff, M4rie.gf2eInit f = some ff ∧ FFOK ff ∧ ff.degree = e ∧ gf2eInit dbg pg0 mt0 f =
      some { ff with powGen := fun i => if i < 2 * e - 1 then ff.powGen i else pg0 i
                     mulTab := ff.mulTab.map fun t a b => if a < 2 ^ e ∧ b < 2 ^ e then t a b else mt0 a b } := by
  obtain ⟨ff, h0, h1, h2, h3⟩ := gf2eInit_ok h
  refine ⟨ff, h0, h3, h1, ?_⟩
  have hd : M4rie.initDegree f = e := M4rie.initDegree_eq h
  unfold M4rie.gf2eInit at h0
  rw [hd] at h0
  dsimp only at h0
  obtain ⟨red, er, h0⟩ := Option.bind_eq_some_iff.1 h0
  have h0 := Option.some.inj h0
  subst h0
  unfold gf2eInit
  rw [initDegree_eq, hd, Option.bind_some, initRed_eq dbg h.e16 er, Option.bind_some, initPowGen_eq f h.e1 h.e16, Option.bind_some]
  by_cases h8 : e ≤ 8
  · rw [if_pos h8, initMulTab_eq h.e1 h.e16, Option.map_some]
    show _ = some _
    rw [if_pos h8]
    rfl
  · rw [if_neg h8]
    show _ = some _
    rw [if_neg h8]
    rfl

/-- with the entries behind the tables chosen as in the total model -/
theorem gf2eInit_same (dbg : Bool) {f : Word} {e : Nat} (h : MinOK f e) {g0 : Gf2e} (hg : M4rie.gf2eInit f = some g0) :
    gf2eInit dbg g0.powGen (g0.mulTab.getD fun _ _ => 0#64) f = some g0 := by
  obtain ⟨ff, e1, -, -, e2⟩ := gf2eInit_eq dbg g0.powGen (g0.mulTab.getD fun _ _ => 0#64) h
  rw [hg] at e1
  cases e1
  rw [e2]
  congr 1
  have p1 : (fun i => if i < 2 * e - 1 then g0.powGen i else g0.powGen i) = g0.powGen := by funext i; rw [ite_self]
  have p2 : (g0.mulTab.map fun t a b => if a < 2 ^ e ∧ b < 2 ^ e then t a b else (g0.mulTab.getD fun _ _ => 0#64) a b) = g0.mulTab := by
    cases g0.mulTab with
    | none => rfl
    | some t => rw [Option.map_some]; congr 1; funext a b; exact ite_self _
  rw [p1, p2]

/-! ### crt_init -/

theorem irred_small : ∀ k, k ≤ 16 → k * irredCount k ≤ 65536 := by decide +kernel
theorem irred_count : ∀ k, k ≤ 16 → irredCount k ≤ 4080 := by decide +kernel
theorem cost_small : ∀ k, k ≤ 16 → crtCost k ≤ 64 := by decide

theorem finDegree_le {p : Nat → Nat} (h : ∀ e, 1 ≤ e → e ≤ 16 → p e ≤ irredCount e) : finDegree p ≤ 130486 := by
  rw [← finDegree_all]
  refine Finset.sum_le_sum fun e he => ?_
  rw [Finset.mem_range] at he
  exact Nat.mul_le_mul_left _ (h (e + 1) (by omega) (by omega))

theorem crtInv_le {need : Int} {omega k have_ : Nat} {p : Nat → Nat} (h : CrtInv need omega k have_ p) : have_ ≤ 130486 := by
  rw [h.sum]
  refine finDegree_le fun e h1 h2 => ?_
  by_cases he : e < k
  · exact h.bound e h1 he
  · rw [h.zero e (by omega)]; omega

theorem crtLoop_eq {degNeed : Int} {omega : Nat} : ∀ (fuel have_ k : Nat) (p : Nat → Nat) (r : (Nat → Nat) × Nat), CrtInv degNeed omega k have_ p →
    M4rie.crtLoop degNeed fuel have_ k p = some r → crtLoop degNeed fuel have_ k p = some r := by
  intro fuel
  induction fuel with
  | zero =>
    intro have_ k p r h e
    by_cases hlt : (have_ : Int) < degNeed
    · have hn : M4rie.crtLoop degNeed 0 have_ k p = none := by
        rw [M4rie.crtLoop.eq_def]; exact (if_neg (not_not.2 hlt)).trans (ite_self _)
      rw [hn] at e; cases e
    · rw [crtLoop_done hlt] at e
      rw [crtLoop.eq_def]
      exact (if_pos hlt).trans e
  | succ fuel ih =>
    intro have_ k p r h e
    by_cases hlt : (have_ : Int) < degNeed
    · by_cases hk : 16 < k
      · have hn : M4rie.crtLoop degNeed (fuel + 1) have_ k p = none := by
          rw [M4rie.crtLoop.eq_def]; exact (if_neg (not_not.2 hlt)).trans (if_pos hk)
        rw [hn] at e; cases e
      · obtain ⟨n, h1, h2⟩ := crtInv_step h hlt hk
        rw [crtLoop_step hlt hk h2] at e
        have ih := ih _ _ _ r h1 e
        have b0 := crtInv_le h
        have b1 := crtInv_le h1
        have b2 := irred_small k (by omega)
        have hk1 := h.k1
        rw [crtLoop.eq_def]
        refine (if_neg (not_not.2 hlt)).trans ?_
        dsimp only
        rw [need_eq (by omega), Option.bind_some, int_eq (by omega), Option.bind_some, int_eq (by omega), Option.bind_some]
        by_cases hc : (have_ : Int) + k * irredCount k < degNeed
        · have hc' : ((have_ + k * irredCount k : Nat) : Int) < degNeed := by push_cast; exact hc
          rw [if_pos hc] at h2
          rw [if_pos hc', ← h2]
          exact ih
        · have hc' : ¬ ((have_ + k * irredCount k : Nat) : Int) < degNeed := by push_cast; exact hc
          rw [if_neg hc] at h2
          have hd : (degNeed - have_).toNat < 2 ^ 31 := by
            have : ((k * irredCount k : Nat) : Int) = (k : Int) * irredCount k := by push_cast; rfl
            omega
          rw [if_neg hc', int_eq hd, Option.bind_some, need_eq (by omega), Option.bind_some, ← h2, int_eq (by omega), Option.bind_some, int_eq (by omega), Option.bind_some]
          exact ih
    · rw [crtLoop_done hlt] at e
      rw [crtLoop.eq_def]
      exact (if_pos hlt).trans e

theorem costCrt_eq {p : Nat → Nat} (h0 : p 0 ≤ 16) (h : TabOk p) : costCrt p = some (blmCostCrt p) := by
  unfold costCrt blmCostCrt
  rw [cost_eq (by omega), Option.bind_some]
  refine (forC_eq (fun d c => c ≤ 64 + d * 261120) _ _ 16 _ ?_ ?_).1
  · have := cost_small _ h0; omega
  · intro d c hd hc
    have c1 := cost_small (d + 1) (by omega)
    have c2 := (h (d + 1) (by omega) (by omega)).trans (irred_count (d + 1) (by omega))
    have c3 : crtCost (d + 1) * p (d + 1) ≤ 64 * 4080 := Nat.mul_le_mul c1 c2
    rw [cost_eq (by omega), Option.bind_some, int_eq (by omega), Option.bind_some, int_eq (by omega)]
    exact ⟨rfl, by omega⟩

theorem crtCandidate_same {fLen gLen omega : Nat} (ho : omega ≤ 7) (hs : fLen + gLen < 2 ^ 31) {r : (Nat → Nat) × Nat} (h : M4rie.crtCandidate fLen gLen omega = some r) :
    crtCandidate fLen gLen omega = some r := by
  obtain ⟨p, c⟩ := r
  obtain ⟨q1, q2, -, q4⟩ := crtCandidate_spec h
  rw [crtCandidate_eq] at h
  obtain ⟨r, er, h⟩ := Option.bind_eq_some_iff.1 h
  have hup := crtLoop_upper 17 0 1 _ r.1 r.2 (by omega) er (by omega)
  unfold crtCandidate
  rw [int_eq hs, Option.bind_some]
  dsimp only
  rw [crtLoop_eq 17 0 1 _ r (crtInv_init _ omega) er, Option.bind_some, need_eq (by omega), Option.bind_some]
  have h := Option.some.inj h
  rw [Prod.mk.injEq] at h
  rw [h.1, costCrt_eq (by rw [q1]; omega) q2, q4, Option.map_some]

/-- `crt_init` is defined if the product of the lengths is an `int` -/
theorem crtInit_eq {fLen gLen : Nat} (h : fLen + gLen ≤ 130487) (hm : fLen * gLen < 2 ^ 31) : crtInit fLen gLen = crtInit? fLen gLen := by
  unfold crtInit crtInit?
  rw [int_eq hm, Option.bind_some]
  congr 1
  refine (forC_M (fun _ => True) _ _ 8 _ trivial fun omega s ho _ => ⟨?_, fun _ _ => trivial⟩).1
  obtain ⟨r, er⟩ := crtCandidate_some (omega := omega) h
  rw [crtCandidate_same (by omega) (by omega) er, er]

end M4rie.Chk
