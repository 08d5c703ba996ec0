import Verif.Proofs.BlocksBad
/-!
# C62: what constructors and destructors do with memory, block by block

`Makes`, `FieldAt`, ..: Spec/Blocks.lean.  All theorems hold for every allocator: any choice of addresses, failure at any request.
-/
namespace M4rie.Mem

variable (A : Alloc)

private theorem makes_ext {x : M Nat} {m : Mem} {At : Mem → Nat → List Nat → Prop}
    (h : Post true x m fun a m' => a ≠ 0 ∧ ∃ l, At m' a l ∧ Ext m l m') : Makes x m At :=
  makes_of_post (post_mono h fun _ _ ⟨h0, l, h1, h2⟩ => ⟨h0, l, h1, h2.extends⟩)

private theorem out_of_post {x : M Unit} {m : Mem} {Q : Mem → Prop} (h : Post true x m fun _ m' => Q m') :
    x m ≠ .fault ∧ ∀ m', x m = .ok () m' → Q m' := by
  unfold Post at h
  refine ⟨fun hc => ?_, fun m' hc => ?_⟩
  · rw [hc] at h; exact h
  · rw [hc] at h; exact h

/-! ## constructors -/

/-- **C62** `gf2e_init`, for every polynomial of degree 1 to 16 (irreducible or not): all tables are written within their bounds, the result
is a complete field structure made of new blocks. -/
theorem C62_field_init (p : Word) (h : 2 ≤ p.toNat) (h' : p.toNat < 2 ^ 17) (m : Mem) :
    Makes (gf2eInit A p) m fun m' a l => FieldAt m' a p.toNat.log2 l :=
  have hm := minOK_of_range h h'
  makes_ext (gf2eInit_post hm hm.e1)

/-- **C62** `mzed_init` -/
theorem C62_mzed_init {m : Mem} {k e : Nat} {lk : List Nat} (hk : FieldAt m k e lk) (r c : Nat) :
    Makes (mzedInit A k r c) m fun m' a l => MzedAt m' a k l := makes_ext (mzedInit_post hk.deg)

/-- **C62** `mzed_init_window`, also of a window -/
theorem C62_mzed_window {m : Mem} {k e s : Nat} {lk ls : List Nat} (hk : FieldAt m k e lk) (hs : MzedAt m s k ls) (r c : Nat) :
    Makes (mzedInitWindow A s r c) m fun m' a l => MzedAt m' a k l := makes_ext (mzedInitWindow_post hs hk.deg)

/-- **C62** `mzd_slice_init`: one slice for each coefficient -/
theorem C62_slice_init {m : Mem} {k e : Nat} {lk : List Nat} (hk : FieldAt m k e lk) (he : e ≤ 16) (r c : Nat) :
    Makes (sliceInit A k r c) m fun m' a l => SliceAt m' a k e l := makes_ext (sliceInit_post hk.deg he)

/-- **C62** `mzd_slice_init_window`: as many slices as the matrix has at this time -/
theorem C62_slice_window {m : Mem} {k d s : Nat} {ls : List Nat} (hs : SliceAt m s k d ls) (r c : Nat) :
    Makes (sliceInitWindow A s r c) m fun m' a l => SliceAt m' a k d l := makes_ext (sliceInitWindow_post hs)

/-- **C62** `njt_mzed_init`; the array `L` has an entry for every element of the field -/
theorem C62_njt_init {m : Mem} {k e : Nat} {lk : List Nat} (hk : FieldAt m k e lk) (c : Nat) :
    Makes (njtInit A k c) m fun m' a l => NjtAt m' a k l ∧ ∃ t, Has m' a 0 t ∧ Size m' t (2 ^ e) := makes_ext (njtInit_post hk.deg)

/-- **C62** `mzd_poly_init` -/
theorem C62_poly_init (d r c : Nat) (m : Mem) :
    Makes (polyInit A d r c) m fun m' a l => PolyAt m' a (d + 1) (d + 1) l := makes_ext polyInit_post

/-- **C62** `blm_init_crt(.., 1)`, `_blm_djb_compile`: the programs for `F` and `G` are shared if the matrices are equal -/
theorem C62_blm_init (same : Bool) (m : Mem) : Makes (blmInit A true same) m fun m' a l => BlmAt m' a l := makes_ext blmInit_post

/-! ## destructors -/

/-- **C62** Every destructor, given an object of its kind, releases each block of the object exactly once and changes nothing else; it
neither faults nor fails. -/
theorem C62_free {m : Mem} {a : Nat} {l : List Nat} {D : Desc} (h : D.At m a l) : destroy a D m = .ok () (m.without l) := destroy_ok h

/-- **C62** A constructor followed by the destructor restores the memory, exactly. -/
theorem C62_init_free {m m' : Mem} {a : Nat} {D : Desc} {x : M Nat} (hx : Makes x m fun m' a l => D.At m' a l) (h : x m = .ok a m') :
    destroy a D m' = .ok () m := by
  obtain ⟨_, l, h1, h2⟩ := hx.2 a m' h
  rw [destroy_ok h1, h2.without]

/-! ## change of depth -/

/-- **C62** `_mzd_slice_adapt_depth` to a depth of at most 16: slices are created or released, the common ones stay
in place, the pointers to released ones become NULL, the object is again complete. -/
theorem C62_slice_depth {m : Mem} {a k d n : Nat} {l : List Nat} (h : SliceAt m a k d l) (hn : n ≤ 16) :
    sliceAdaptDepth A a n m ≠ .fault ∧ ∀ m', sliceAdaptDepth A a n m = .ok () m' →
      ((∀ j v, j < n → j < d → Has m a j v → Has m' a j v) ∧ ∀ j, n ≤ j → j < d → Has m' a j 0) ∧ ∃ l', SliceAt m' a k n l' ∧ Changes m l l' m' :=
  out_of_post (sliceAdaptDepth_post h hn)

/-- **C62** `_mzd_poly_adapt_depth` up to the depth at the time of creation -/
theorem C62_poly_depth {m : Mem} {a d c n : Nat} {l : List Nat} (h : PolyAt m a d c l) (hn : n ≤ c) :
    polyAdaptDepth A a n m ≠ .fault ∧ ∀ m', polyAdaptDepth A a n m = .ok () m' →
      (∃ p, Has m a 0 p ∧ Has m' a 0 p ∧ (∀ j v, j < n → j < d → Has m p j v → Has m' p j v) ∧ ∀ j, n ≤ j → j < d → Has m' p j 0) ∧
      ∃ l', PolyAt m' a n c l' ∧ Changes m l l' m' :=
  out_of_post (polyAdaptDepth_post h hn)

/-! ## arrays of temporaries -/

/-- **C62** `_mzd_ptr_apply_blm_djb`: the three arrays of temporaries, for every number of products; the memory is restored. -/
theorem C62_apply_blm (n : Nat) (m : Mem) : applyBlmDjb A n m ≠ .fault ∧ ∀ m', applyBlmDjb A n m = .ok () m' → m' = m :=
  out_of_post applyBlmDjb_post

/-- **C62** `_mzd_poly_addmul_ext1`: the array of evaluations, for two or more evaluation points; the memory is restored. -/
theorem C62_ext1_array {m : Mem} {k e d : Nat} {lk : List Nat} (hk : FieldAt m k e lk) (he : e ≤ 16) (hd : 2 ≤ d) :
    ext1Array A k d m ≠ .fault ∧ ∀ m', ext1Array A k d m = .ok () m' → m' = m :=
  out_of_post (ext1Array_post hk.deg he hd)

/-! ## histories -/

/-- **C62** In a program that follows the rules (`Legal`) no call ever faults: after any history, for any order of construction, change of depth
and destruction. -/
theorem C62_session {m0 m : Mem} {h : Objs} (r : Reach A m0 h m) {c : Call} (hl : Legal h c) : step A h c m ≠ .fault := by
  intro hc
  have := step_post (A := A) r.inv hl
  unfold Post at this
  rw [hc] at this
  exact this

/-- **C62** In every state reached, the objects are complete, no block belongs to two of them, and there are no blocks besides those of the
objects and those that were there at the start, which are unchanged. -/
theorem C62_session_objects {m0 m : Mem} {h : Objs} (r : Reach A m0 h m) :
    ∃ t : List ((Nat × Desc) × List Nat), (t.map (·.1)).Perm h ∧ (∀ p ∈ t, p.1.2.At m p.1.1 p.2) ∧ (t.flatMap (·.2)).Nodup ∧
      ∀ b, (b ∈ t.flatMap (·.2) → m0 b = none ∧ m b ≠ none) ∧ (b ∉ t.flatMap (·.2) → m b = m0 b) := by
  obtain ⟨t, h1, h2, h3⟩ := r.inv
  exact ⟨t, h1, h2, h3.nodup, fun b => ⟨fun hb => ⟨h3.old b hb, h3.live b hb⟩, h3.other b⟩⟩

/-- **C62** When everything has been released, the memory is as before. -/
theorem C62_session_end {m0 m : Mem} (r : Reach A m0 [] m) : m = m0 := by
  obtain ⟨t, h1, _, h3⟩ := r.inv
  have : t = [] := by simpa using h1.length_eq
  subst this
  exact Ext.eq h3

/-- **C62** Objects known to a program have different addresses, none of them `NULL`. -/
theorem C62_session_addresses {m0 m : Mem} {h : Objs} (r : Reach A m0 h m) : (h.map (·.1)).Nodup ∧ ∀ p ∈ h, p.1 ≠ 0 := by
  obtain ⟨t, h1, h2, h3⟩ := r.inv
  refine ⟨(h1.map (·.1)).nodup_iff.1 ?_, ?_⟩
  · rw [List.map_map]
    clear h1
    have hn := h3.nodup
    clear h3
    induction t with
    | nil => exact List.nodup_nil
    | cons p t ih =>
      rw [List.flatMap_cons] at hn
      obtain ⟨_, n2, n3⟩ := List.nodup_append.1 hn
      refine List.nodup_cons.2 ⟨fun hc => ?_, ih (fun q hq => h2 q (List.mem_cons_of_mem _ hq)) n2⟩
      obtain ⟨q, hq, hqe⟩ := List.mem_map.1 hc
      have s1 := (h2 p (List.mem_cons_self ..)).self
      have s2 := (h2 q (List.mem_cons_of_mem _ hq)).self
      exact n3 _ s1 _ (List.mem_flatMap.2 ⟨q, hq, s2⟩) hqe.symm
  · intro p hp
    obtain ⟨q, hq, hqe⟩ := List.mem_map.1 (h1.mem_iff.2 hp)
    rw [← hqe]
    exact h3.ne0 _ (List.mem_flatMap.2 ⟨q, hq, (h2 q hq).self⟩)

/-! ## what goes wrong -/

/-- **C62** `blm_free` for a map made by `blm_init_crt(.., 0)`, which has no compiled programs, passes `NULL` to `djb_free`: always. -/
theorem C62_violation_blm_free_without_djb {m m' : Mem} (h0 : m 0 = none) {same : Bool} {f : Nat} (h : blmInit A false same m = .ok f m') :
    blmFree f m' = .fault := by
  have := blmInit_false (A := A) (same := same) h0
  unfold Post at this
  rw [h] at this
  exact this

/-- **C62** `_mzd_poly_addmul_ext1` with one evaluation point (a product of two constants) writes behind its array: the call never returns
normally. -/
theorem C62_violation_ext1_one_point {m : Mem} {k e : Nat} {lk : List Nat} (hk : FieldAt m k e lk) (he : e ≤ 16) :
    ∀ m', ext1Array A k 1 m ≠ .ok () m' := fun m' => ext1Array_never hk.deg he () m'

/-- **C62** `_mzd_poly_adapt_depth` can not extend a polynomial beyond its depth at creation, contrary to its documentation: it writes behind
the array of coefficients. -/
theorem C62_violation_poly_extend {m : Mem} {a d c n : Nat} {l : List Nat} (h : PolyAt m a d c l) (hn : c < n) :
    ∀ m', polyAdaptDepth A a n m ≠ .ok () m' := fun m' => polyAdaptDepth_never h hn () m'

/-- **C62** `_mzd_slice_adapt_depth` to a depth of 17 to 20 overwrites the number of rows (cell 16) with an address. -/
theorem C62_violation_slice_extend {m m' : Mem} {a k d n : Nat} {l : List Nat} (h : SliceAt m a k d l) (h16 : 16 < n) (hn : n ≤ 20)
    (hr : sliceAdaptDepth A a n m = .ok () m') : ∃ x, Has m' a 16 x ∧ m x = none ∧ m' x ≠ none :=
  (out_of_post (sliceAdaptDepth_over h h16 hn)).2 m' hr

/-! ## instances -/

/-- an allocator: the lowest unused address below 1000 -/
def bump : Alloc := ⟨fun m _ => (List.range' 1 999).find? (fun a => (m a).isNone), fun m n a h => by
  have h1 := List.find?_some h
  have h2 := List.mem_of_find?_eq_some h
  rw [List.mem_range'_1] at h2
  exact ⟨Option.isNone_iff_eq_none.1 h1, by omega⟩⟩

/-- calls in sequence -/
def calls : List Call → Objs → M Objs
  | [], h => pure h
  | c :: cs, h => do let h' ← step bump h c; calls cs h'

/-- GF(4), a packed matrix, a window of it, a sliced matrix that gets a third slice, a table, a polynomial, a map; released in another order -/
def demo : List Call := [.field 7#64, .mzed 1 3 4, .mzedWindow 9 2 2, .slice 1 3 4, .depth 13 3, .njt 1 5, .poly 2 3 3, .depth 23 1, .blm true, .apply 3,
  .ext1 1 3, .free 9, .free 1, .free 13, .free 11, .free 23, .free 17]

-- the state in the middle: seven objects, 31 blocks
example : (match calls (demo.take 9) [] Mem.empty with
    | .ok h m => decide (h = [(26, .blm), (23, .poly 1 3), (17, .njt 1), (13, .slice 1 3), (11, .mzed 1), (9, .mzed 1), (1, .field 2)]) &&
      decide (((List.range 100).filter fun a => (m a).isSome).length = 31)
    | _ => false) = true := by decide +kernel

-- the end: nothing is left
example : (match calls (demo ++ [.free 26]) [] Mem.empty with
    | .ok h m => decide (h = []) && decide (((List.range 1000).filter fun a => (m a).isSome).length = 0) | _ => false) = true := by decide +kernel

-- states with objects are reached
example : ∃ m, Reach bump Mem.empty [(9, .slice 1 2), (1, .field 2)] m := ⟨_,
  .call (c := .slice 1 3 3) (.call (c := .field 7#64) .start ⟨by decide, by decide⟩ rfl) ⟨2, by decide, by decide⟩ rfl⟩

-- the misuses
example : (match (do let f ← blmInit bump false true; blmFree f) Mem.empty with | .fault => true | _ => false) = true := by decide +kernel
example : (match (do let k ← gf2eInit bump 7#64; ext1Array bump k 1) Mem.empty with | .fault => true | _ => false) = true := by decide +kernel
example : (match (do let k ← polyInit bump 2 3 3; polyAdaptDepth bump k 4) Mem.empty with | .fault => true | _ => false) = true := by decide +kernel
example : (match (do let k ← gf2eInit bump 7#64; let a ← sliceInit bump k 3 3; sliceAdaptDepth bump a 17; load a 16) Mem.empty with
    | .ok r _ => r | _ => 0) = 26 := by decide +kernel

end M4rie.Mem
