import Verif.Proofs.HeapTable
import Verif.Proofs.HeapSession
/-!
# Property C61: objects on the heap

Every routine releases exactly what it creates, except the object it returns; it never uses or releases an object that is not there, never
releases an object into which a window exists, never releases its arguments.  `table false` is the library as it is, `table true` the library
with three repairs, see `Model/Heap.lean`; `api` lists the ways to call each routine.
-/
namespace M4rie.Props
open M4rie.Res

/-- The library as it is: for every routine and every way to call it, all executions, from every heap and all arguments: no fault; afterwards
the heap is what it was, plus the returned object if that is a new one - plus abandoned objects, for the ways marked so. -/
theorem C61_safe : ∀ f, ∀ s ∈ api false f, Safe (table false) f s := fun f _ hs => checkAll_safe (table_checked false) f hs

/-- With the three repairs nothing is left behind in any of the ways. -/
theorem C61_repaired : ∀ f, ∀ s ∈ api true f, s.leaks = false ∧ Safe (table true) f s := by
  intro f s hs
  refine ⟨?_, checkAll_safe (table_checked true) f hs⟩
  have : ∀ f, ((api true f).all fun s => !s.leaks) = true := by intro f; cases f <;> decide
  have := List.all_eq_true.1 (this f) s hs
  simpa using this

/-- The only ways of calling that leave something behind in the library as it is: the construction of bilinear maps, and the routines that
construct one. -/
theorem C61_leaks_only : ∀ f, ∀ s ∈ api false f, s.leaks = true →
    f = ._crt_modred_mat ∨ f = ._blm_finish_polymult ∨ f = .blm_init_crt ∨ f = ._mzd_poly_addmul_crt ∨
    f = ._mzed_addmul_blm ∨ f = .mzed_mul_blm ∨ f = .mzed_addmul_blm ∨
    ((f = ._mzd_slice_mul_blm ∨ f = .mzd_slice_mul_blm ∨ f = .mzd_slice_addmul_blm) ∧ s.nulls[3]? = some true) := by
  intro f s hs hl
  have : ∀ f, ((api false f).all fun s => !s.leaks || (decide (f = ._crt_modred_mat) || decide (f = ._blm_finish_polymult) ||
      decide (f = .blm_init_crt) || decide (f = ._mzd_poly_addmul_crt) || decide (f = ._mzed_addmul_blm) || decide (f = .mzed_mul_blm) ||
      decide (f = .mzed_addmul_blm) || ((decide (f = ._mzd_slice_mul_blm) || decide (f = .mzd_slice_mul_blm) ||
      decide (f = .mzd_slice_addmul_blm)) && decide (s.nulls[3]? = some true)))) = true := by intro f; cases f <;> decide
  have := List.all_eq_true.1 (this f) s hs
  rw [hl] at this
  simp only [Bool.not_true, Bool.false_or, Bool.or_eq_true, Bool.and_eq_true, decide_eq_true_eq] at this
  simpa only [or_assoc] using this

/-- the ways of calling that leave nothing behind -/
def tight (f : FName) : List Sig := (api false f).filter fun s => !s.leaks

/-- Whole sessions, library as it is: whatever a caller does with objects it knows of, no call commits a fault, nothing the caller holds ever
disappears or changes its kind, and what else is on the heap are abandoned objects, not windows into the objects of the caller. -/
theorem C61_session {h g : Heap} (S : Session (table false) (api false) h g) :
    (∀ n o, g n = some o → h n = some o) ∧ (∀ n o, h n = some o → g n = some o ∨ (g n = none ∧ o.parent = none)) ∧
    ∀ f, ∀ s ∈ api false f, ∀ vals, ArgsOk g (table false f).params s.nulls vals →
      ¬ Exec (table false) (table false f).body (bindArgs vals) h .fault := by
  obtain ⟨c, hg⟩ := session_inv C61_safe S
  exact ⟨c.1, c.2, fun f s hs vals ha => ((C61_safe f s hs) h vals (c.closed hg) (c.args ha)).1⟩

/-- Whole sessions that avoid the leaking ways: the heap is exactly what the caller holds; if it has released everything, the heap is
empty. -/
theorem C61_session_tight {h g : Heap} (S : Session (table false) tight h g) : h = g :=
  session_exact (fun f s hs => C61_safe f s (List.mem_filter.1 hs).1) (fun f s hs => by simpa using (List.mem_filter.1 hs).2) S

/-- Whole sessions with the repaired library: the same, with no way excluded. -/
theorem C61_session_repaired {h g : Heap} (S : Session (table true) (api true) h g) : h = g ∧
    ∀ f, ∀ s ∈ api true f, ∀ vals, ArgsOk g (table true f).params s.nulls vals →
      ¬ Exec (table true) (table true f).body (bindArgs vals) h .fault := by
  have c := session_inv (fun f s hs => (C61_repaired f s hs).2) S
  refine ⟨session_exact (fun f s hs => (C61_repaired f s hs).2) (fun f s hs => (C61_repaired f s hs).1) S, ?_⟩
  exact fun f s hs vals ha => (((C61_repaired f s hs).2) h vals (c.1.closed c.2) (c.1.args ha)).1

/-! ### Some of the routines, spelled out -/

/-- `mzed_invert_newton_john(NULL, A)` for a live `A`: never a fault, and if it returns, it returns a new matrix and the heap is otherwise
unchanged. -/
theorem C61_invert {h : Heap} (hc : Closed h) {a : Nat} {p : Option Nat} (ha : h a = some ⟨.mzed, p⟩) :
    ¬ Exec (table false) (table false .mzed_invert_newton_john).body (bindArgs [.null, .ptr a]) h .fault ∧
    ∀ e' h', Exec (table false) (table false .mzed_invert_newton_john).body (bindArgs [.null, .ptr a]) h (.ok e' h') →
      ∃ n, e' 0 = .ptr n ∧ h n = none ∧ h' = h.set n (some ⟨.mzed, none⟩) := by
  have S := C61_safe .mzed_invert_newton_john (sg [true, false] (.fresh .mzed)) (by decide)
  refine S h [.null, .ptr a] hc ⟨rfl, rfl, ?_⟩
  intro i k v hk hv
  match i, hk, hv with
  | 0, _, hv => cases hv; exact .inl ⟨rfl, rfl⟩
  | 1, hk, hv => cases hv; cases hk; exact .inr ⟨rfl, a, p, rfl, ha⟩

/-- `mzed_echelonize(A, full)` for a live `A`: never a fault, and the heap afterwards is the heap before. -/
theorem C61_echelonize {h : Heap} (hc : Closed h) {a : Nat} {p : Option Nat} (ha : h a = some ⟨.mzed, p⟩) :
    ¬ Exec (table false) (table false .mzed_echelonize).body (bindArgs [.ptr a]) h .fault ∧
    ∀ e' h', Exec (table false) (table false .mzed_echelonize).body (bindArgs [.ptr a]) h (.ok e' h') → h' = h := by
  have S := C61_safe .mzed_echelonize (sg [false] .nothing) (by decide)
  refine S h [.ptr a] hc ⟨rfl, rfl, ?_⟩
  intro i k v hk hv
  match i, hk, hv with
  | 0, hk, hv => cases hv; cases hk; exact .inr ⟨rfl, a, p, rfl, ha⟩

/-- `mzed_mul(NULL, A, B)`, where `A` and `B` may be the same matrix or windows of the same matrix. -/
theorem C61_mul {h : Heap} (hc : Closed h) {a b : Nat} {p q : Option Nat} (ha : h a = some ⟨.mzed, p⟩) (hb : h b = some ⟨.mzed, q⟩) :
    ¬ Exec (table false) (table false .mzed_mul).body (bindArgs [.null, .ptr a, .ptr b]) h .fault ∧
    ∀ e' h', Exec (table false) (table false .mzed_mul).body (bindArgs [.null, .ptr a, .ptr b]) h (.ok e' h') →
      ∃ n, e' 0 = .ptr n ∧ h n = none ∧ h' = h.set n (some ⟨.mzed, none⟩) := by
  have S := C61_safe .mzed_mul (sg [true, false, false] (.fresh .mzed)) (by decide)
  refine S h [.null, .ptr a, .ptr b] hc ⟨rfl, rfl, ?_⟩
  intro i k v hk hv
  match i, hk, hv with
  | 0, _, hv => cases hv; exact .inl ⟨rfl, rfl⟩
  | 1, hk, hv => cases hv; cases hk; exact .inr ⟨rfl, a, p, rfl, ha⟩
  | 2, hk, hv => cases hv; cases hk; exact .inr ⟨rfl, b, q, rfl, hb⟩

/-! ### What is left behind -/

/-- choices for the interpreter -/
abbrev t : Bool := true
abbrev f : Bool := false

/-- `_crt_modred_mat` leaves the two matrices of blm.c:352-353 behind -/
theorem C61_violation_modred : ¬ Safe (table false) ._crt_modred_mat (sg [] (.fresh .mzd)) :=
  leak_unsafe (t := 200) (cs := [f,t,t,t,t,t,t,f,t,t,t,t,t,f,f]) (vals := []) (l := []) rfl rfl (by decide +kernel) rfl

/-- `_blm_finish_polymult` leaves the matrix of blm.c:449 behind -/
theorem C61_violation_finish : ¬ Safe (table false) ._blm_finish_polymult (sg [false] (.arg 0)) :=
  leak_unsafe (t := 200) (cs := [f,t,t,t,t,t,t,f,t,t,t,t,t,f,f,f,f,t,t,f]) (vals := [.ptr 0]) (l := [(0, ⟨.blm, none⟩)]) rfl rfl
    (by decide +kernel) rfl

/-- `blm_init_crt` leaves something behind -/
theorem C61_violation_crt : ¬ Safe (table false) .blm_init_crt (sg [false] (.fresh .blm)) :=
  leak_unsafe (t := 200) (cs := [t,t,t,t,t,t,t,t,t,t,t,t,t,t,t,f,f,f,t,f,t,t,t,f,t,f,t,f,t,f,t,t,t,f,t,f,t,t,t,t,f,t,t,f,f,t,f])
    (vals := [.ptr 0]) (l := [(0, ⟨.mem, none⟩)]) rfl rfl (by decide +kernel) rfl

/-- and so does the multiplication `mzd_slice_mul_blm(NULL, A, B, NULL)` -/
theorem C61_violation_slice_mul : ¬ Safe (table false) .mzd_slice_mul_blm (sg [true, false, false, true] (.fresh .slice)) :=
  leak_unsafe (t := 200) (cs := [t,t,t,f,f,t,t,t,f,f,t,t,f,f,f,t,t,t,t,t,t,f,t,t,t,f,t,f,t,t,t,f,t,t,f,t,t,f,t,f,t,t,f])
    (vals := [.null, .ptr 0, .ptr 1, .null]) (l := [(0, ⟨.slice, none⟩), (1, ⟨.slice, none⟩)]) rfl rfl (by decide +kernel) rfl

/-- and `mzed_mul_blm(NULL, A, B)` -/
theorem C61_violation_mul : ¬ Safe (table false) .mzed_mul_blm (sg [true, false, false] (.fresh .mzed)) :=
  leak_unsafe (t := 200) (cs := [t,t,t,t,f,t,f,t,t,t,t,t,f,f,f,t,f,t,t,t,t,t,f,t,f,t,t,f,f,t,t,t,t,f,f,f,f,t,t,t,f,f,f,t,t,t,f,t,t,t,f])
    (vals := [.null, .ptr 0, .ptr 1]) (l := [(0, ⟨.mzed, none⟩), (1, ⟨.mzed, none⟩)]) rfl rfl (by decide +kernel) rfl

/-- `_mzd_poly_addmul_crt(NULL, A, B)` does not return the product (mzd_poly.h:228 drops it): it returns `NULL`, so that it does not keep the
promise of its siblings, even if leaks are admitted. -/
theorem C61_violation_poly_crt : ¬ Safe (table false) ._mzd_poly_addmul_crt ⟨[true, false, false], .fresh .poly, true⟩ := by
  intro S
  have hr : runsTo (table false) ._mzd_poly_addmul_crt 200
      [t,t,t,t,t,t,f,t,t,t,t,t,f,t,f,t,t,f,t,t,t,t,t,f,t,f,f,f,f,t,t,t,f,f,t,f,f,f,t,f,f,t,t,t,t,t,t,t,f]
      [.null, .ptr 0, .ptr 1] [(0, ⟨.poly, none⟩), (1, ⟨.poly, none⟩)] (fun v _ => v == .null) = true := by decide +kernel
  obtain ⟨e', l', hx, hP⟩ := runsTo_exec hr
  obtain ⟨n, hv, _⟩ := (S _ _ (FHeap.closed rfl) (FHeap.args_ok rfl)).2 _ _ hx
  rw [hv] at hP
  simp at hP

/-- `_blm_finish_polymult` with the leaked matrix as its result: a device to speak about that matrix -/
def witnessTable (g : FName) : Fn FName := if g = ._blm_finish_polymult then { f__blm_finish_polymult false with result := some 9 } else table false g

/-- *Every* execution of `_blm_finish_polymult` that returns leaves an object behind (the matrix `DT` of blm.c:449): the leak is not a matter
of the path taken. -/
theorem C61_violation_finish_always {h : Heap} (hc : Closed h) {a : Nat} {p : Option Nat} (ha : h a = some ⟨.blm, p⟩) {e' : Env} {h' : Heap}
    (hx : Exec (table false) (table false ._blm_finish_polymult).body (bindArgs [.ptr a]) h (.ok e' h')) :
    ∃ n, h n = none ∧ h' n = some ⟨.mzd, none⟩ ∧ (table false ._blm_finish_polymult).resultOf e' ≠ .ptr n := by
  let S : FName → Bool := fun g => decide (g = ._crt_modred_mat)
  let sigs : FName → List Sig := fun g => if g = ._blm_finish_polymult then [⟨[false], .fresh .mzd, true⟩] else
    if g = ._crt_modred_mat then api false ._crt_modred_mat else []
  have hx' : Exec witnessTable (witnessTable ._blm_finish_polymult).body (bindArgs [.ptr a]) h (.ok e' h') := by
    refine Exec.transport (S := S) ?_ ?_ hx (by decide +kernel)
    · intro g hg; have hg : g = ._crt_modred_mat := by simpa [S] using hg
      subst hg; rfl
    · intro g hg; have hg : g = ._crt_modred_mat := by simpa [S] using hg
      subst hg; decide +kernel
  have hck : ∀ g, ∀ s ∈ sigs g, checkFn witnessTable sigs g s = true := by
    intro g
    rw [← List.all_eq_true (p := fun s => checkFn witnessTable sigs g s)]
    cases g <;> decide +kernel
  have W : Safe witnessTable ._blm_finish_polymult ⟨[false], .fresh .mzd, true⟩ := checkAll_safe hck _ (by decide)
  have hargs : ArgsOk h [.blm] [false] [.ptr a] := by
    refine ⟨rfl, rfl, ?_⟩
    intro i k v hk hv
    match i, hk, hv with
    | 0, hk, hv => cases hv; cases hk; exact .inr ⟨rfl, a, p, rfl, ha⟩
  obtain ⟨n, _, hn, hs⟩ := (W h [.ptr a] hc hargs).2 e' h' hx'
  refine ⟨n, hn, hs.1 n _ (Heap.set_self_ _ _ _), ?_⟩
  have R := ((C61_safe ._blm_finish_polymult ⟨[false], .arg 0, true⟩ (by decide)) h [.ptr a] hc hargs).2 e' h' hx
  intro c
  have R2 : some (Val.ptr a) = some ((table false ._blm_finish_polymult).resultOf e') := R.2
  rw [c] at R2
  cases R2
  rw [hn] at ha; cases ha

/-! ### The hypotheses are met -/

/-- there is a closed heap with a matrix, and executions of `mzed_invert_newton_john` on it that return -/
example : ∃ e' h', Exec (table false) (table false .mzed_invert_newton_john).body (bindArgs [.null, .ptr 0])
    (FHeap.at [(0, ⟨.mzed, none⟩)]) (.ok e' h') := by
  have h : runsTo (table false) .mzed_invert_newton_john 200 [f,f,t,t,f,t,t,f,t,t,t,t,f,t,t,f,t,t,t,t,t,f,t,t,t,t,t,t,t,t,t,f,t,f,f,f,f]
    [.null, .ptr 0] [(0, ⟨.mzed, none⟩)] (fun v _ => v != .null) = true := by decide +kernel
  obtain ⟨e', l', hx, _⟩ := runsTo_exec h
  exact ⟨e', _, hx⟩

/-- `mzed_mul(NULL, A, A)` -/
example : ∃ e' h', Exec (table false) (table false .mzed_mul).body (bindArgs [.null, .ptr 0, .ptr 0])
    (FHeap.at [(0, ⟨.mzed, none⟩)]) (.ok e' h') := by
  have h : runsTo (table false) .mzed_mul 200 [t,f,f,t,f,f,t,t,t,f,f,f,t,f,f,f,t,f,t,t,f,f,f,f,f,t]
    [.null, .ptr 0, .ptr 0] [(0, ⟨.mzed, none⟩)] (fun v _ => v != .null) = true := by decide +kernel
  obtain ⟨e', l', hx, _⟩ := runsTo_exec h
  exact ⟨e', _, hx⟩

/-- a recursive PLE decomposition -/
example : ∃ e' h', Exec (table false) (table false ._mzd_slice_ple).body (bindArgs [.ptr 0, .ptr 1, .ptr 2])
    (FHeap.at [(0, ⟨.slice, none⟩), (1, ⟨.mzp, none⟩), (2, ⟨.mzp, none⟩)]) (.ok e' h') := by
  have h : runsTo (table false) ._mzd_slice_ple 200
    [t,t,f,t,t,t,f,t,f,t,t,t,t,t,t,t,t,t,t,t,t,t,t,t,t,f,f,t,t,f,t,f,t,t,f,f,f,t,f,t,t,f,f,t,f,t,f]
    [.ptr 0, .ptr 1, .ptr 2] [(0, ⟨.slice, none⟩), (1, ⟨.mzp, none⟩), (2, ⟨.mzp, none⟩)] (fun _ l => l.length == 3) = true := by decide +kernel
  obtain ⟨e', l', hx, _⟩ := runsTo_exec h
  exact ⟨e', _, hx⟩

/-- an execution of `_blm_finish_polymult` that returns -/
example : ∃ e' h', Exec (table false) (table false ._blm_finish_polymult).body (bindArgs [.ptr 0]) (FHeap.at [(0, ⟨.blm, none⟩)]) (.ok e' h') := by
  have h : runsTo (table false) ._blm_finish_polymult 200 [f,t,t,t,t,t,t,f,t,t,t,t,t,f,f,f,f,t,t,f] [.ptr 0] [(0, ⟨.blm, none⟩)]
    (fun _ _ => true) = true := by decide +kernel
  obtain ⟨e', l', hx, _⟩ := runsTo_exec h
  exact ⟨e', _, hx⟩

/-- a session: create a matrix, multiply it with itself, release both: the ledger is empty again -/
example : ∃ g, Session (table false) tight g g ∧ g 0 = none ∧ g 1 = none := by
  have h : runsTo (table false) .mzed_mul 200 [t,f,f,t,f,f,t,t,t,f,f,f,t,f,f,f,t,f,t,t,f,f,f,f,f,t]
    [.null, .ptr 0, .ptr 0] [(0, ⟨.mzed, none⟩)] (fun v _ => v == .ptr 1) = true := by decide +kernel
  obtain ⟨e', l', hx, hv⟩ := runsTo_exec h
  have hv : (table false .mzed_mul).resultOf e' = .ptr 1 := by simpa using hv
  have e0 : FHeap.at [(0, ⟨.mzed, none⟩)] = Heap.set (fun _ => none) 0 (some ⟨.mzed, none⟩) := FHeap.at_put [] 0 _
  have S0 : Session (table false) tight _ _ := Session.new (k := .mzed) (n := 0) Session.start rfl
  rw [← e0] at S0
  have S1 := Session.call (f := .mzed_mul) (s := sg [true, false, false] (.fresh .mzed)) S0 (by decide)
    (FHeap.args_ok (vals := [.null, .ptr 0, .ptr 0]) rfl) hx
  have E1 := C61_session_tight S1
  rw [E1] at S1
  have L1 : ledgerAfter (FHeap.at [(0, ⟨.mzed, none⟩)]) (sg [true, false, false] (.fresh .mzed)) ((table false .mzed_mul).resultOf e') =
      (FHeap.at [(1, ⟨.mzed, none⟩), (0, ⟨.mzed, none⟩)]) := by rw [hv]; exact (FHeap.at_put [(0, ⟨.mzed, none⟩)] 1 ⟨.mzed, none⟩).symm
  rw [L1] at S1
  have S2 := Session.free (n := 1) (k := .mzed) S1 ⟨⟨1, none, rfl, rfl⟩, FHeap.noWin_ok rfl⟩
  rw [← FHeap.at_rm] at S2
  have S3 := Session.free (n := 0) (k := .mzed) S2 ⟨⟨0, none, rfl, rfl⟩, FHeap.noWin_ok rfl⟩
  exact ⟨_, S3, rfl, rfl⟩

end M4rie.Props
