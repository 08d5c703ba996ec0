import Verif.Model.CheckedBlm
import Verif.Proofs.CheckedApi
import Verif.Proofs.BlmMul

/-! The checked bilinear maps do what the total model does. -/

namespace M4rie.Chk
open M4rie M4rie.Spec

/-- a loop that follows a loop of the total model, with an invariant -/
theorem forC_sim {σ τ : Type} (P : Nat → σ → Prop) (e : σ → τ) (f : Nat → τ → Option τ) (g : Nat → σ → Option σ) {r : σ} : ∀ n,
    (∀ i s s', i < n → P i s → g i s = some s' → f i (e s) = some (e s') ∧ P (i + 1) s') → ∀ s, P 0 s → forNM g n s = some r → forC f n (e s) = some (e r) ∧ P n r := by
  intro n
  induction n generalizing r with
  | zero => intro _ s h0 h; cases h; exact ⟨rfl, h0⟩
  | succ n ih =>
    intro hs s h0 h
    rw [forNM] at h
    cases hc : forNM g n s with
    | none => rw [hc] at h; cases h
    | some t =>
      rw [hc, Option.bind_some] at h
      obtain ⟨e1, p1⟩ := ih (fun i s s' hi => hs i s s' (by omega)) s h0 hc
      rw [forC, e1, Option.bind_some]
      exact hs n t r (by omega) p1 h

theorem mWrite_eq {nr nc i j : Nat} (w : Nat → Nat → Word) (hi : i < nr) (hj : j < nc) (v : Bool) :
    mWrite ⟨nr, nc, w⟩ i j v = some ⟨nr, nc, mzdWriteBit w i j v⟩ := by
  unfold mWrite; rw [need_eq ⟨hi, hj⟩]; rfl

theorem mRead_eq {nr nc i j : Nat} (w : Nat → Nat → Word) (hi : i < nr) (hj : j < nc) : mRead ⟨nr, nc, w⟩ i j = some (bitAt w i j) := by
  unfold mRead; rw [need_eq ⟨hi, hj⟩]; rfl

theorem mWord_eq {nr nc i j : Nat} (w : Nat → Nat → Word) (hi : i < nr) (hj : j < (nc + 63) / 64) : mWord ⟨nr, nc, w⟩ i j = some (w i j) := by
  unfold mWord; rw [need_eq ⟨hi, hj⟩]; rfl

theorem rowTop_eq {nc : Nat} (w : Nat → Nat → Word) : ∀ j, j ≤ (nc + 63) / 64 → rowTop ⟨1, nc, w⟩ j = some (M4rie.rowTop j (w 0)) := by
  intro j
  induction j with
  | zero => intro _; rfl
  | succ j ih =>
    intro h
    rw [rowTop, mWord_eq w (by omega) (by omega), Option.bind_some, M4rie.rowTop]
    by_cases hx : w 0 j = 0#64
    · rw [if_neg (not_not.2 hx), if_neg (not_not.2 hx)]; exact ih (by omega)
    · rw [if_pos hx, if_pos hx]

theorem rowTop_lt (f : Nat → Word) : ∀ w, 0 < w → M4rie.rowTop w f < 64 * w := by
  intro w
  induction w with
  | zero => intro h; omega
  | succ w ih =>
    intro _
    rw [M4rie.rowTop]
    split
    · have := gf2xDeg_lt (f w); omega
    · by_cases hw : w = 0
      · rw [hw]; show 0 < 64 * (0 + 1); omega
      · have := ih (by omega); omega

theorem modredLoop_eq {length d : Nat} (poly : Word) (hd : d < 64) : ∀ (fuel : Nat) (f : Nat → Nat → Word) (ii : Nat) (f' : Nat → Nat → Word) (ii' : Nat),
    ii < 64 * ((length + 63) / 64) → M4rie.modredLoop length poly d fuel f ii = some (f', ii') →
    modredLoop length poly d fuel ⟨1, length, f⟩ ii = some (⟨1, length, f'⟩, ii') ∧ ii' < d ∧ ii' < 64 * ((length + 63) / 64) := by
  intro fuel
  induction fuel with
  | zero =>
    intro f ii f' ii' hi h
    rw [M4rie.modredLoop.eq_def] at h
    rw [modredLoop.eq_def]
    by_cases hlt : ii < d
    · simp only [if_pos hlt] at h ⊢; cases h; exact ⟨rfl, hlt, hi⟩
    · simp only [if_neg hlt] at h; cases h
  | succ fuel ih =>
    intro f ii f' ii' hi h
    rw [M4rie.modredLoop.eq_def] at h
    rw [modredLoop.eq_def]
    by_cases hlt : ii < d
    · simp only [if_pos hlt] at h ⊢; cases h; exact ⟨rfl, hlt, hi⟩
    · simp only [if_neg hlt] at h ⊢
      by_cases hl : ii < length
      · rw [if_neg (not_not.2 hl)] at h
        have e1 : mXor (mNew 1 length) 0 (ii - d) (d + 1) poly = some ⟨1, length, mzdXorRange zeroW 0 (ii - d) (d + 1) poly⟩ := by
          unfold mXor mNew; rw [need_eq (by dsimp only; omega)]; rfl
        have e2 : ∀ t, mAdd ⟨1, length, f⟩ ⟨1, length, f⟩ ⟨1, length, t⟩ = some ⟨1, length, mzdAdd 1 length f f t⟩ := by
          intro t; unfold mAdd; rw [need_eq ⟨rfl, rfl, rfl, rfl⟩]; rfl
        rw [e1, Option.bind_some, e2, Option.bind_some]
        show (rowTop ⟨1, length, _⟩ ((length + 63) / 64)).bind _ = _ ∧ _
        rw [rowTop_eq _ _ le_rfl, Option.bind_some]
        exact ih _ _ _ _ (rowTop_lt _ _ (by omega)) h
      · rw [if_pos hl] at h; cases h

theorem modredWrite_eq {d length i j : Nat} (f A : Nat → Nat → Word) (hj : j < d) (hi : i < length) (hw : j < 64 * ((length + 63) / 64)) :
    modredWrite ⟨1, length, f⟩ ⟨d, length, A⟩ i j = some ⟨d, length, mzdWriteBit A j i (decide ((f 0 (j / 64) >>> (j % 64)) &&& 1#64 ≠ 0#64))⟩ := by
  unfold modredWrite
  rw [mWord_eq f (by omega) (by omega), Option.bind_some, shr_eq (by omega), Option.bind_some, mWrite_eq A hj hi]

theorem crtModredMat_eq {length d : Nat} {poly : Word} (hd : d < 64) {A : Nat → Nat → Word} (h : crtModredMat? length poly d = some A) :
    crtModredMat length poly d = some ⟨d, length, A⟩ := by
  unfold crtModredMat? at h
  unfold crtModredMat
  by_cases hp : poly = 0#64
  · rw [if_pos hp] at h ⊢
    by_cases hl : d ≤ length
    · rw [if_pos hl] at h
      cases h
      exact forC_map (fun w => (⟨d, length, w⟩ : Mzd)) _ _ d (fun i s hi => by
        show (need (i + 1 ≤ length)).bind _ = _
        rw [need_eq (by omega), Option.bind_some, mWrite_eq s hi (by omega)]) zeroW
    · rw [if_neg hl] at h; cases h
  · rw [if_neg hp] at h ⊢
    refine (forC_sim (fun _ _ => True) (fun w => (⟨d, length, w⟩ : Mzd)) _ _ length (fun i A A' hi _ hs => ⟨?_, trivial⟩) zeroW trivial h).1
    have e1 : mPut (mNew 1 length) 0 (i / 64) (twoPow (i % 64)) = some ⟨1, length, fun r j => if r = 0 ∧ j = i / 64 then twoPow (i % 64) else 0#64⟩ := by
      unfold mPut mNew; rw [need_eq (by dsimp only; omega)]; rfl
    rw [e1, Option.bind_some]
    cases hm : M4rie.modredLoop length poly d length (fun r j => if r = 0 ∧ j = i / 64 then twoPow (i % 64) else 0#64) i with
    | none => rw [hm] at hs; cases hs
    | some r =>
      obtain ⟨f, ii⟩ := r
      rw [hm, Option.bind_some] at hs
      cases hs
      obtain ⟨e2, l1, l2⟩ := modredLoop_eq poly hd _ _ _ _ _ (by omega) hm
      rw [e2, Option.bind_some]
      exact forC_map (fun w => (⟨d, length, w⟩ : Mzd)) _ _ (ii + 1) (fun j s hj => modredWrite_eq f s (by omega) hi (by omega)) A

/-! ### the matrices `F` and `G` -/

/-- the checked state of a total one -/
def stOf (m fn gn : Nat) (s : CrtState) : CrtSt := ⟨⟨m, fn, s.F⟩, ⟨m, gn, s.G⟩, s.r, s.it⟩

theorem cost_eq {d : Nat} (h : d < 17) : cost d = some (crtCost d) := by unfold cost; rw [need_eq h]; rfl

theorem mMulRows_eq {m n r c k : Nat} (F N M : Nat → Nat → Word) (h : r + c ≤ m) :
    mMulRows ⟨m, n, F⟩ r c n ⟨c, k, N⟩ ⟨k, n, M⟩ = some ⟨m, n, mzdMulRows F r c k n N M⟩ := by
  unfold mMulRows; rw [need_eq ⟨h, le_rfl⟩, Option.bind_some, need_eq ⟨rfl, rfl, rfl⟩]; rfl

theorem crtAddBlock_eq {m fn gn d : Nat} (h16 : d ≤ 16) (N : Nat → Nat → Word) {poly : Word} {s s' : CrtState} (hr : s.r + crtCost d ≤ m)
    (h : crtAddBlock? fn gn ⟨crtCost d, d, N⟩ poly d s = some s') :
    crtAddBlock fn gn ⟨crtCost d, d, N⟩ poly d (stOf m fn gn s) = some (stOf m fn gn s') ∧ s'.r = s.r + crtCost d := by
  unfold crtAddBlock? at h
  cases hF : crtModredMat? fn poly d with
  | none => rw [hF] at h; cases h
  | some MF =>
    rw [hF, Option.bind_some] at h
    cases hG : crtModredMat? gn poly d with
    | none => rw [hG] at h; cases h
    | some MG =>
      rw [hG, Option.bind_some] at h
      cases h
      refine ⟨?_, rfl⟩
      unfold crtAddBlock
      rw [crtModredMat_eq (by omega) hF, Option.bind_some, cost_eq (by omega), Option.bind_some]
      show (mMulRows ⟨m, fn, s.F⟩ s.r (crtCost d) fn _ _).bind _ = _
      rw [mMulRows_eq _ _ _ hr, Option.bind_some, crtModredMat_eq (by omega) hG, Option.bind_some]
      show (mMulRows ⟨m, gn, s.G⟩ s.r (crtCost d) gn _ _).bind _ = _
      rw [mMulRows_eq _ _ _ hr]; rfl

theorem crtNext_eq (it : Nat → Nat) {e : Nat} (h : e ≤ 16) : crtNext it e = some (crtNext? it e) := by
  unfold crtNext crtNext?
  by_cases h0 : e = 0
  · rw [if_pos h0, if_neg (fun hh => hh.1 h0)]
  · rw [if_neg h0, need_eq (by omega), Option.bind_some]
    by_cases hl : it e < irredCount e
    · rw [if_pos hl, if_pos ⟨h0, hl⟩]
      rw [← (Props.C09_nodup_count e).2] at hl
      rw [List.getElem?_eq_getElem hl]; rfl
    · rw [if_neg hl, if_neg (fun hh => hl hh.2)]

theorem crtModulus_eq (it : Nat → Nat) {d : Nat} (h : d ≤ 16) : crtModulus it d = crtModulus? it d := by
  unfold crtModulus crtModulus?
  simp only [crtNext_eq it h, crtNext_eq it (show d / 2 ≤ 16 by omega), crtNext_eq it (show d / 4 ≤ 16 by omega), crtNext_eq it (show d / 8 ≤ 16 by omega),
    Option.bind_some, mul_eq]
  cases crtNext? it d <;> cases crtNext? it (d / 2) <;> cases crtNext? it (d / 4) <;> cases crtNext? it (d / 8) <;> rfl

theorem smallMapMzd_dims {d : Nat} (h1 : 1 ≤ d) (h2 : d ≤ 16) : ∃ N, smallMapMzd? d = some ⟨crtCost d, d, N⟩ := by
  obtain ⟨L, e, hL⟩ := smallMap_length d h1 h2
  unfold smallMapMzd?
  rw [e, Option.map_some, hL]
  exact ⟨_, rfl⟩

/-- the rows used by the moduli of degree at most `d` -/
def rowsUpTo (p : Nat → Nat) (d : Nat) : Nat := forN (fun d c => c + crtCost (d + 1) * p (d + 1)) d (crtCost (p 0))

theorem rowsUpTo_mono (p : Nat → Nat) {a b : Nat} (h : a ≤ b) : rowsUpTo p a ≤ rowsUpTo p b := by
  induction b with
  | zero => rw [show a = 0 by omega]
  | succ b ih =>
    by_cases hb : a = b + 1
    · rw [hb]
    · exact le_trans (ih (by omega)) (Nat.le_add_right _ _)

theorem blmMaps_eq {fn gn m : Nat} {p : Nat → Nat} {s : CrtState} (hm : blmCostCrt p < 2 ^ 31) (h : blmMaps? fn gn p = some (m, s)) :
    blmMaps fn gn p = some (m, stOf m fn gn s) := by
  unfold blmMaps? at h
  by_cases h16 : 16 < p 0
  · rw [if_pos h16] at h; cases h
  rw [if_neg h16] at h
  cases hi : crtInfinity? fn gn p ⟨zeroW, zeroW, 0, fun _ => 0⟩ with
  | none => rw [hi] at h; cases h
  | some s0 =>
    rw [hi, Option.bind_some] at h
    cases hl : forNM (fun d s => crtDegree? fn gn p (d + 1) s) 16 s0 with
    | none => rw [hl] at h; cases h
    | some s1 =>
      rw [hl, Option.map_some] at h
      cases h
      have htop : rowsUpTo p 16 = blmCostCrt p := rfl
      generalize hM : blmCostCrt p = M at hm htop ⊢
      unfold blmMaps
      rw [cost_eq (by omega), Option.bind_some, hM, int_eq hm, Option.bind_some]
      have h0 : crtInfinity fn gn p (stOf M fn gn ⟨zeroW, zeroW, 0, fun _ => 0⟩) = some (stOf M fn gn s0) ∧ s0.r = crtCost (p 0) := by
        unfold crtInfinity? at hi
        unfold crtInfinity
        by_cases hp : p 0 = 0
        · rw [if_neg (not_not.2 hp)] at hi ⊢
          cases hi; exact ⟨rfl, by rw [hp]; rfl⟩
        · rw [if_pos hp] at hi ⊢
          obtain ⟨N, eN⟩ := smallMapMzd_dims (d := p 0) (by omega) (by omega)
          rw [eN, Option.bind_some] at hi ⊢
          have := crtAddBlock_eq (m := M) (by omega) N (by
            show 0 + crtCost (p 0) ≤ M
            have := rowsUpTo_mono p (Nat.zero_le 16)
            rw [htop] at this
            have e : rowsUpTo p 0 = crtCost (p 0) := rfl
            omega) hi
          exact ⟨this.1, by rw [this.2]; exact Nat.zero_add _⟩
      have : crtInfinity fn gn p ⟨mNew M fn, mNew M gn, 0, fun _ => 0⟩ = some (stOf M fn gn s0) := h0.1
      rw [this, Option.bind_some]
      have key := forC_sim (fun d s => s.r = rowsUpTo p d) (stOf M fn gn) (fun d s => crtDegree fn gn p (d + 1) s) (fun d s => crtDegree? fn gn p (d + 1) s) 16
        (fun d s s' hd hr hs => ?_) s0 h0.2 hl
      · rw [key.1]; rfl
      · unfold crtDegree? at hs
        unfold crtDegree
        have e : rowsUpTo p (d + 1) = rowsUpTo p d + crtCost (d + 1) * p (d + 1) := rfl
        have hle : rowsUpTo p (d + 1) ≤ M := htop ▸ rowsUpTo_mono p (by omega)
        by_cases hp : p (d + 1) = 0
        · rw [if_pos hp] at hs ⊢
          cases hs
          exact ⟨rfl, by rw [e, hp, Nat.mul_zero]; exact hr⟩
        · rw [if_neg hp] at hs ⊢
          obtain ⟨N, eN⟩ := smallMapMzd_dims (d := d + 1) (by omega) (by omega)
          rw [eN, Option.bind_some] at hs ⊢
          have k2 := forC_sim (fun j s => s.r = rowsUpTo p d + crtCost (d + 1) * j) (stOf M fn gn)
            (fun _ s => (crtModulus s.it (d + 1)).bind fun q => crtAddBlock fn gn ⟨crtCost (d + 1), d + 1, N⟩ q.1 (d + 1) { s with it := q.2 })
            (fun _ s => (crtModulus? s.it (d + 1)).bind fun (q, it) => crtAddBlock? fn gn ⟨crtCost (d + 1), d + 1, N⟩ q (d + 1) { s with it := it }) (p (d + 1))
            (fun j s s' hj hr hs => ?_) s (by rw [Nat.mul_zero]; exact hr) hs
          · exact ⟨k2.1, by rw [e]; exact k2.2⟩
          · show (crtModulus s.it (d + 1)).bind _ = _ ∧ _
            rw [crtModulus_eq s.it (by omega)]
            cases hq : crtModulus? s.it (d + 1) with
            | none => rw [hq] at hs; cases hs
            | some q =>
              obtain ⟨q, it⟩ := q
              rw [hq, Option.bind_some] at hs
              rw [Option.bind_some]
              have hb : crtCost (d + 1) * (j + 1) ≤ crtCost (d + 1) * p (d + 1) := Nat.mul_le_mul_left _ (by omega)
              rw [Nat.mul_succ] at hb
              have := crtAddBlock_eq (m := M) (by omega) N (by show s.r + _ ≤ M; omega) hs
              exact ⟨this.1, by rw [this.2, Nat.mul_succ]; show s.r + _ = _; omega⟩

/-! ### the matrix `H` -/

theorem finStep_eq {env : BlmEnv} (henv : BlmEnvOk env) {m fn gn : Nat} {FT GT : Nat → Nat → Word} {s s' : FinState} (hr : s.r < m)
    (h : M4rie.finStep env m fn gn FT GT s = some s') : finStep env m fn gn FT GT s = some s' := by
  unfold M4rie.finStep at h
  unfold finStep
  by_cases hb : s.v < fn ∧ s.w < gn
  · rw [if_neg (not_not.2 hb)] at h
    rw [need_eq ⟨hb.1, hb.2, hr⟩, Option.bind_some]
    simp only at h ⊢
    by_cases hm : s.r + 1 = m
    · rw [if_pos hm] at h ⊢
      rw [need_eq (show permOk ⟨m, (env.ple m (finRow ((m + 63) / 64) FT GT s.v s.w s.r s.C)).2⟩ m m from (henv.ple m _).perm), Option.bind_some]
      exact h
    · rw [if_neg hm] at h ⊢; exact h
  · rw [if_pos hb] at h; cases h

theorem finLoop_eq {env : BlmEnv} (henv : BlmEnvOk env) {m fn gn : Nat} {F G : Nat → Nat → Word} : ∀ (fuel : Nat) {s s' : FinState}, FinInv m fn gn F G s →
    M4rie.finLoop env m fn gn (mzdTranspose m fn F) (mzdTranspose m gn G) fuel s = some s' →
    finLoop env m fn gn (mzdTranspose m fn F) (mzdTranspose m gn G) fuel s = some s' := by
  intro fuel
  induction fuel with
  | zero =>
    intro s s' hs h
    rw [finLoop.eq_def]
    dsimp only
    by_cases hr : s.rank < m
    · rw [M4rie.finLoop_zero hr] at h; cases h
    · rw [M4rie.finLoop_done hr] at h; rw [if_pos hr]; exact h
  | succ fuel ih =>
    intro s s' hs h
    rw [finLoop.eq_def]
    dsimp only
    by_cases hr : s.rank < m
    · rw [M4rie.finLoop_succ hr] at h
      rw [if_neg (not_not.2 hr)]
      cases h1 : M4rie.finStep env m fn gn (mzdTranspose m fn F) (mzdTranspose m gn G) s with
      | none => rw [h1] at h; cases h
      | some s1 =>
        rw [h1, Option.bind_some] at h
        show (finStep env m fn gn _ _ s).bind _ = _
        rw [finStep_eq henv (hs.le hr) h1, Option.bind_some]
        exact ih (finStep_inv henv hs hr h1) h
    · rw [M4rie.finLoop_done hr] at h; rw [if_pos hr]; exact h

theorem finHRow_eq {m cn i : Nat} (piv : Nat → Nat × Nat) (DT H : Nat → Nat → Word) (hi : i < cn) :
    finHRow m piv ⟨m, m, DT⟩ i ⟨cn, m, H⟩ = some ⟨cn, m, forN (fun j H => mzdWriteBit H i j (bitAt (mzdMul 1 m m zeroW
      (forN (fun j a => if (piv j).1 + (piv j).2 = i then mzdWriteBit a 0 j true else a) m zeroW) DT) 0 j)) m H⟩ := by
  unfold finHRow
  have e1 := forC_map (fun w => (⟨1, m, w⟩ : Mzd)) (fun j a => if (piv j).1 + (piv j).2 = i then mWrite a 0 j true else some a)
    (fun j a => if (piv j).1 + (piv j).2 = i then mzdWriteBit a 0 j true else a) m (fun j s hj => by
      by_cases hc : (piv j).1 + (piv j).2 = i
      · rw [if_pos hc, if_pos hc, mWrite_eq s (by omega) hj]
      · rw [if_neg hc, if_neg hc]) zeroW
  rw [show mNew 1 m = ⟨1, m, zeroW⟩ from rfl, e1, Option.bind_some]
  unfold mMul
  rw [need_eq ⟨rfl, rfl, rfl⟩, Option.bind_some, Option.bind_some]
  exact forC_map (fun w => (⟨cn, m, w⟩ : Mzd)) _ _ m (fun j s hj => by
    show (mRead ⟨1, m, _⟩ 0 j).bind _ = _
    rw [mRead_eq _ (by omega) hj, Option.bind_some, mWrite_eq s hi hj]) H

theorem blmFinish_eq {env : BlmEnv} (henv : BlmEnvOk env) {fuel m fn gn : Nat} {F G : Nat → Nat → Word} {ff : Option Gf2e} (hn : fn + gn < 2 ^ 31)
    (hff : ∀ f, ff = some f → f.degree ≤ 16) {H : Mzd} (h : blmFinish? env fuel ff m fn gn F G = some H) :
    blmFinish env fuel ff m fn gn F G = some H := by
  unfold blmFinish? at h
  unfold blmFinish
  rw [int_eq hn, Option.bind_some]
  dsimp only at h ⊢
  cases hl : M4rie.finLoop env m fn gn (mzdTranspose m fn F) (mzdTranspose m gn G) fuel ⟨zeroW, fun _ => (0, 0), 0, 0, 0, 0⟩ with
  | none => rw [hl] at h; cases h
  | some s =>
    rw [hl, Option.bind_some] at h
    rw [finLoop_eq henv fuel (finInv_init henv) hl, Option.bind_some]
    obtain ⟨hs, hrk⟩ := finLoop_inv henv fuel (finInv_init henv) hl
    have hr : s.r = m := (hs.full hrk).1
    have e1 : finRows m fn gn (mzdTranspose m fn F) (mzdTranspose m gn G) s.piv s.C =
        some (forN (fun r C => finRow ((m + 63) / 64) (mzdTranspose m fn F) (mzdTranspose m gn G) (s.piv r).1 (s.piv r).2 r C) m s.C) :=
      forC_map id _ _ m (fun r C hrm => by
        have := hs.rows r (by omega)
        show (need _).bind _ = _
        rw [need_eq ⟨hrm, this.1, this.2.1⟩]; rfl) s.C
    rw [e1, Option.bind_some]
    have e2 := forC_map (fun w => (⟨fn + gn - 1, m, w⟩ : Mzd)) (fun i H => finHRow m s.piv ⟨m, m, mzdTranspose m m (env.inv m
      (forN (fun r C => finRow ((m + 63) / 64) (mzdTranspose m fn F) (mzdTranspose m gn G) (s.piv r).1 (s.piv r).2 r C) m s.C))⟩ i H) _ (fn + gn - 1)
      (fun i H hi => finHRow_eq s.piv _ H hi) zeroW
    rw [show mNew (fn + gn - 1) m = ⟨fn + gn - 1, m, zeroW⟩ from rfl, e2, Option.bind_some]
    cases ff with
    | none => exact h
    | some ff =>
      simp only at h ⊢
      cases hN : crtModredMat? (fn + gn - 1) ff.minpoly ff.degree with
      | none => rw [hN] at h; cases h
      | some N =>
        rw [hN, Option.map_some] at h
        rw [crtModredMat_eq (by have := hff ff rfl; omega) hN, Option.bind_some]
        unfold mMul
        rw [need_eq ⟨rfl, rfl, rfl⟩]
        exact h

theorem blmInitCrt_eq (dbg : Bool) {env : BlmEnv} (henv : BlmEnvOk env) {fuel fn gn : Nat} {p : Nat → Nat} {ff : Option Gf2e} {djb : Bool} (hn : fn + gn < 2 ^ 31)
    (hm : blmCostCrt p < 2 ^ 31) (hff : ∀ f, ff = some f → f.degree ≤ 16) {f : Blm} (h : blmInitCrt? env fuel ff fn gn p djb = some f) :
    blmInitCrt dbg env fuel ff fn gn p djb = some f := by
  unfold blmInitCrt? at h
  unfold blmInitCrt
  cases hs : blmMaps? fn gn p with
  | none => rw [hs] at h; cases h
  | some q =>
    obtain ⟨m, s⟩ := q
    rw [hs, Option.bind_some] at h
    rw [blmMaps_eq hm hs, Option.bind_some]
    dsimp only at h
    cases hH : blmFinish? env fuel ff m fn gn s.F s.G with
    | none => rw [hH] at h; cases h
    | some H =>
      rw [hH, Option.map_some] at h
      show (blmFinish env fuel ff m fn gn s.F s.G).bind _ = _
      rw [blmFinish_eq henv hn hff hH, Option.bind_some]
      cases djb with
      | true =>
        rw [if_pos rfl]
        rw [if_pos rfl] at h
        unfold blmDjbCompile
        rw [assert_eq (show Option.isNone (none : Option (List DjbOp × List DjbOp × List DjbOp)) = true from rfl), Option.bind_some]
        exact h
      | false =>
        rw [if_neg (by decide)]
        rw [if_neg (by decide)] at h
        exact h

/-! ### application -/

theorem pcpy_eq {m n : Nat} (W V : Nat → Nat → Word) : pcpy ⟨m, n, W⟩ ⟨m, n, V⟩ = some ⟨m, n, mzdCopy m n W V⟩ := by
  unfold pcpy; rw [need_eq ⟨le_rfl, le_rfl⟩]; rfl

theorem djbStep_eq {len vlen nrows nr nc : Nat} {v v' : Nat → Nat → Nat → Word} (hv : ∀ j, j < vlen → v j = v' j) (s : (Nat → Bool) × (Nat → Nat → Nat → Word)) {o : DjbOp}
    (h1 : o.target < nrows) (h2 : o.target < len) (h3 : o.source < if o.fromSource then vlen else len) :
    djbStep nrows ⟨vlen, nr, nc, v⟩ (s.1, ⟨len, nr, nc, s.2⟩) o = some ((M4rie.djbStep nr nc v' s o).1, ⟨len, nr, nc, (M4rie.djbStep nr nc v' s o).2⟩) := by
  unfold djbStep M4rie.djbStep
  rw [need_eq h1, Option.bind_some]
  have hsrc : (if o.fromSource = true then (⟨vlen, nr, nc, v⟩ : Arr).get o.source else (⟨len, nr, nc, s.2⟩ : Arr).get o.source) =
      some ⟨nr, nc, if o.fromSource then v' o.source else s.2 o.source⟩ := by
    by_cases hc : o.fromSource = true
    · rw [if_pos hc] at h3 ⊢
      rw [get_eq _ h3, if_pos hc, hv _ h3]
    · rw [if_neg hc] at h3 ⊢
      rw [get_eq _ h3, if_neg hc]
  dsimp only
  rw [hsrc, Option.bind_some, get_eq _ h2, Option.bind_some]
  by_cases ht : s.1 o.target = true
  · rw [if_pos ht, if_pos ht, pcpy_eq, Option.bind_some, put_eq _ _ h2]; rfl
  · rw [if_neg ht, if_neg ht, padd_eq, Option.bind_some, put_eq _ _ h2]; rfl

theorem djbFold_eq {len vlen nrows nr nc : Nat} {v v' : Nat → Nat → Nat → Word} (hv : ∀ j, j < vlen → v j = v' j) : ∀ (prog : List DjbOp),
    (∀ o ∈ prog, o.target < nrows ∧ o.target < len ∧ o.source < if o.fromSource then vlen else len) → ∀ s : (Nat → Bool) × (Nat → Nat → Nat → Word),
    prog.foldlM (djbStep nrows ⟨vlen, nr, nc, v⟩) (s.1, ⟨len, nr, nc, s.2⟩) =
      some ((prog.foldl (M4rie.djbStep nr nc v') s).1, ⟨len, nr, nc, (prog.foldl (M4rie.djbStep nr nc v') s).2⟩) := by
  intro prog
  induction prog with
  | nil => intro _ s; rfl
  | cons o prog ih =>
    intro h s
    obtain ⟨h1, h2, h3⟩ := h o List.mem_cons_self
    rw [List.foldlM_cons, djbStep_eq hv s h1 h2 h3]
    exact ih (fun o ho => h o (List.mem_cons_of_mem _ ho)) _

theorem djbApply_eq {len vlen nr0 nr nc : Nat} {F : Nat → Nat → Word} {prog : List DjbOp} (hp : DjbComputes nr0 vlen F prog) (hl : nr0 ≤ len)
    {v v' : Nat → Nat → Nat → Word} (hv : ∀ j, j < vlen → v j = v' j) (W : Nat → Nat → Nat → Word) :
    djbApply nr0 prog ⟨len, nr, nc, W⟩ ⟨vlen, nr, nc, v⟩ = some ⟨len, nr, nc, djbApplyPtr nr nc prog W v'⟩ := by
  unfold djbApply djbApplyPtr
  rw [djbFold_eq hv prog.reverse (fun o ho => ?_) ((fun _ => true), W)]
  · rfl
  · rw [List.mem_reverse] at ho
    have h1 := hp.target o ho
    have h2 := hp.source o ho
    refine ⟨h1, by omega, ?_⟩
    by_cases hc : o.fromSource = true
    · rw [if_pos hc] at h2 ⊢; exact h2
    · rw [if_neg hc] at h2 ⊢; omega

theorem ptrApplyBlm_eq (dbg : Bool) {f : Blm} (hc : f.H.ncols = f.F.nrows) (hg : f.F.nrows = f.G.nrows) (hd : DjbOk f) (hj : f.djb.isSome = true)
    {d m k n : Nat} (hd0 : 0 < d) (hF : f.F.ncols = d) (hG : f.G.ncols = d) (hH : f.H.nrows = d) (X A B : Nat → Nat → Nat → Word) :
    ptrApplyBlm dbg f ⟨d, m, n, X⟩ ⟨d, m, k, A⟩ ⟨d, k, n, B⟩ = (ptrApplyBlm? f m k n X A B).map fun x => ⟨d, m, n, x⟩ := by
  unfold ptrApplyBlm ptrApplyBlm?
  cases hf : f.djb with
  | none => rw [hf] at hj; cases hj
  | some q =>
    obtain ⟨pf, pg, ph⟩ := q
    obtain ⟨d1, d2, d3⟩ := hd pf pg ph hf
    rw [hF] at d1; rw [hG, ← hg] at d2; rw [hc, hH] at d3
    dsimp only
    unfold ptrApplyBlmDjb ptrApplyBlmDjb? blmAssert
    rw [assert_eq ⟨hc, hg⟩, Option.bind_some, need_eq (Or.inr ⟨hd0, hd0⟩), Option.bind_some, if_neg (not_not.2 ⟨hc, hg⟩), ← hg, hH]
    rw [djbApply_eq d1 le_rfl (fun _ _ => rfl), Option.bind_some, djbApply_eq d2 le_rfl (fun _ _ => rfl), Option.bind_some]
    generalize hT1 : djbApplyPtr m k pf (fun _ => zeroW) A = T1
    generalize hT2 : djbApplyPtr k n pg (fun _ => zeroW) B = T2
    have key : ∀ N, N ≤ f.F.nrows → ∃ x, forC (fun i (t0 : Arr) => (t0.get i).bind fun c => ((⟨f.F.nrows, m, k, T1⟩ : Arr).get i).bind fun a =>
        ((⟨f.F.nrows, k, n, T2⟩ : Arr).get i).bind fun b => (pmul c a b).bind fun c => t0.put i c) N ⟨f.F.nrows, m, n, fun _ => zeroW⟩ =
        some ⟨f.F.nrows, m, n, x⟩ ∧ (∀ j, j < N → x j = mzdMul m k n zeroW (T1 j) (T2 j)) ∧ ∀ j, N ≤ j → x j = zeroW := by
      intro N
      induction N with
      | zero => intro _; exact ⟨_, rfl, fun j hj => absurd hj (Nat.not_lt_zero j), fun _ _ => rfl⟩
      | succ N ih =>
        intro hN
        obtain ⟨x, e, h1, h2⟩ := ih (by omega)
        refine ⟨setSlice x N (mzdMul m k n zeroW (T1 N) (T2 N)), ?_, ?_, ?_⟩
        · rw [forC, e, Option.bind_some, get_eq _ (by omega), Option.bind_some, get_eq _ (by omega), Option.bind_some, get_eq _ (by omega), Option.bind_some,
            pmul_eq, Option.bind_some, put_eq _ _ (by omega), h2 N le_rfl]
        · intro j hj
          unfold setSlice
          by_cases hjN : j = N
          · rw [if_pos hjN, hjN]
          · rw [if_neg hjN]; exact h1 j (by omega)
        · intro j hj
          unfold setSlice
          rw [if_neg (by omega)]; exact h2 j (by omega)
    obtain ⟨x, e, h1, -⟩ := key f.F.nrows le_rfl
    rw [e, Option.bind_some, djbApply_eq d3 le_rfl h1]
    rfl

section
variable {ff : Gf2e} [IsField ff] {m k n fid fuel : Nat} {env : BlmEnv} (henv : BlmEnvOk env) (hfuel : ff.degree * ff.degree ≤ fuel)

theorem deg_pos : 1 ≤ ff.degree := (Fact.out : FFOK ff).min.e1

include henv hfuel

theorem sliceMulBlmRaw_eq (dbg : Bool) {C A B : Slice} (hC : Sd ff m n fid C) (hA : Sd ff m k fid A) (hB : Sd ff k n fid B) :
    sliceMulBlmRaw dbg env fuel C A B = mzdSliceMulBlmRaw? env fuel C A B none := by
  have h16 := deg_le (ff := ff)
  have h1 := deg_pos (ff := ff)
  unfold sliceMulBlmRaw mzdSliceMulBlmRaw?
  rw [hC.ff_eq, if_neg (by omega), need_eq (by omega), Option.bind_some]
  dsimp only
  rw [if_neg (by omega)]
  have hff : ∀ f, some ff = some f → MinOK f.minpoly f.degree := by rintro f ⟨rfl⟩; exact (Fact.out : FFOK ff).min
  obtain ⟨f, e, hx, hd, hr⟩ := blmInit_single henv h1 h16 hfuel hff true
  have hj : f.djb.isSome = true := by
    unfold blmInitCrt? at e
    cases hs : blmMaps? ff.degree ff.degree (crtSingle ff.degree) with
    | none => rw [hs] at e; cases e
    | some q =>
      rw [hs, Option.bind_some] at e
      dsimp only at e
      cases hH : blmFinish? env fuel (some ff) q.1 ff.degree ff.degree q.2.F q.2.G with
      | none => rw [hH] at e; cases e
      | some H => rw [hH, Option.map_some, if_pos rfl] at e; cases e; rfl
  have hcost : blmCostCrt (crtSingle ff.degree) < 2 ^ 31 := by
    rw [crtSingle_cost h1 h16]
    have : ∀ d, d ≤ 16 → crtCost d < 2 ^ 31 := by decide
    exact this _ h16
  rw [blmInitCrt_eq dbg henv (by omega) hcost (by rintro f ⟨rfl⟩; exact h16) e, e, Option.bind_some, Option.bind_some, hC.arr_eq, hA.arr_eq, hB.arr_eq,
    hA.nrows_eq, hA.ncols_eq, hB.ncols_eq]
  rw [ptrApplyBlm_eq dbg hx.2.1 hx.2.2.1 hd hj h1 hx.2.2.2.1 hx.2.2.2.2.1 hx.1]
  cases ptrApplyBlm? f m k n C.x A.x B.x <;> rfl

theorem sliceMulBlmInit_eqv (dbg : Bool) {A B : Slice} (hA : Sd ff m k fid A) (hB : Sd ff k n fid B) :
    Eqv (Sd ff m n fid) (sliceMulBlmRaw dbg env fuel (mzdSliceInit ff fid m n) A B) (mzdSliceMulBlmRaw? env fuel (mzdSliceInit ff fid m n) A B none) := by
  refine ⟨sliceMulBlmRaw_eq henv hfuel dbg sinit_sd hA hB, fun R h => ?_⟩
  obtain ⟨X, rfl, x1, x2, x3⟩ := hA
  obtain ⟨Y, rfl, y1, y2, y3⟩ := hB
  rw [sliceInit_spack, sliceMulBlmRaw_spack henv hfuel _ X Y x1.symm y2.symm (fun i j _ _ => rfl)] at h
  cases h
  exact ⟨_, rfl, rfl, rfl, rfl⟩

theorem sliceMulBlm_eq (dbg : Bool) {C A B : Slice} (hC : Sd ff m n fid C) (hA : Sd ff m k fid A) (hB : Sd ff k n fid B) :
    sliceMulBlm dbg env fuel C A B = mzdSliceMulBlm? env fuel C A B none := by
  unfold sliceMulBlm mzdSliceMulBlm?
  split
  · rfl
  split
  · rfl
  rw [sliceSetUi_eq hC, Option.bind_some]
  exact sliceMulBlmRaw_eq henv hfuel dbg (setUi_zero_sd hC) hA hB

theorem sliceAddmulBlm_eq (dbg : Bool) {C A B : Slice} (hC : Sd ff m n fid C) (hA : Sd ff m k fid A) (hB : Sd ff k n fid B) :
    sliceAddmulBlm dbg env fuel C A B = mzdSliceAddmulBlm? env fuel C A B none := by
  unfold sliceAddmulBlm mzdSliceAddmulBlm?
  split
  · rfl
  split
  · rfl
  rw [hA.ff_eq, hA.fid_eq, hA.nrows_eq, hB.ncols_eq, sliceInit_eq, Option.bind_some]
  obtain ⟨e, h⟩ := sliceMulBlmInit_eqv henv hfuel dbg hA hB
  rw [e]
  cases hc : mzdSliceMulBlmRaw? env fuel (mzdSliceInit ff fid m n) A B none with
  | none => rw [Option.bind_none, Option.bind_none]
  | some T => rw [Option.bind_some, Option.bind_some, sliceAdd_eq hC hC (h T hc)]

theorem addmulBlmRaw_eq (dbg : Bool) (hs : Sm ff n) {C A B : Mzed} (hC : Dm ff m n fid C) (hA : Dm ff m k fid A) (hB : Dm ff k n fid B) :
    addmulBlmRaw dbg env fuel C A B = mzedAddmulBlmRaw? env fuel C A B := by
  unfold addmulBlmRaw mzedAddmulBlmRaw?
  obtain ⟨eA, hA'⟩ := sliceNew_eqv dbg hA
  rw [eA]
  cases ha : mzedSliceNew? A with
  | none => rw [Option.bind_none, Option.bind_none]
  | some As =>
    rw [Option.bind_some, Option.bind_some]
    obtain ⟨eB, hB'⟩ := sliceNew_eqv dbg hB
    rw [eB]
    cases hb : mzedSliceNew? B with
    | none => rw [Option.bind_none, Option.bind_none]
    | some Bs =>
      rw [Option.bind_some, Option.bind_some]
      have sA := hA' As ha
      have sB := hB' Bs hb
      rw [sA.ff_eq, sA.fid_eq, sA.nrows_eq, sB.ncols_eq, sliceInit_eq, Option.bind_some]
      obtain ⟨e, h⟩ := sliceMulBlmInit_eqv henv hfuel dbg sA sB
      rw [e]
      cases hc : mzdSliceMulBlmRaw? env fuel (mzdSliceInit ff fid m n) As Bs none with
      | none => rw [Option.bind_none, Option.bind_none]
      | some Ts =>
        rw [Option.bind_some, Option.bind_some]
        obtain ⟨e2, h2⟩ := clingNew_eqv hs (h Ts hc)
        rw [e2]
        cases hd : mzedClingNew? Ts with
        | none => rw [Option.bind_none, Option.bind_none]
        | some T => rw [Option.bind_some, Option.bind_some, add_eq hC hC (h2 T hd)]

theorem mulBlm_eq (dbg clear : Bool) (hs : Sm ff n) {C A B : Mzed} (hC : Dm ff m n fid C) (hA : Dm ff m k fid A) (hB : Dm ff k n fid B) :
    mulBlm dbg env fuel clear C A B = (mzedMulInit? C A B clear).bind fun C => mzedAddmulBlmRaw? env fuel C A B := by
  unfold mulBlm
  obtain ⟨e, h⟩ := mulInit_eqv (A := A) (B := B) clear hC hs
  rw [e]
  cases hc : mzedMulInit? C A B clear with
  | none => rw [Option.bind_none, Option.bind_none]
  | some D => rw [Option.bind_some, Option.bind_some, addmulBlmRaw_eq henv hfuel dbg hs (h D hc) hA hB]

end

end M4rie.Chk
