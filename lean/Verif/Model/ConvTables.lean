/-!
Generated by tools/gen_conv.py from conversion.c, conversion_slice8.c, conversion_slice16.c,
conversion_cling8.c and conversion_cling16.c: the statements of the loop bodies, in source order.
-/

namespace M4rie

/-- `word_slice_64_..(f[j+word]<<lsh & mask)>>rsh` -/
structure SliceTerm where
  word : Nat
  lsh : Nat
  rsh : Nat
deriving DecidableEq

/-- One loop over the rows of a `_mzed_slice*` function.  `bulk`: statements `t_k[j2] = ..` (`true`) or
`t_k[j2] |= ..` (`false`) of the inner loop, with the slice index `k`; `cases`: the switch, one entry per label,
statements `r_k |= ..`, each case falling through to the next; `finals`: the `k` with
`t_k[j2] |= r_k & bitmask_end`. -/
structure SlicePass where
  bulk : List (Nat × Bool × List SliceTerm)
  cases : List (Nat × List (Nat × SliceTerm))
  finals : List Nat

/-- `word_cling_64_..(f_slice[j2]<<lsh)>>rsh` -/
structure ClingTerm where
  slice : Nat
  lsh : Nat
  rsh : Nat
deriving DecidableEq

/-- `t[..] = v`, `t[..] |= v`, `t[..] = (t[..] & ~bitmask_end) | (v & bitmask_end)` -/
inductive ClingOp where
  | set | or | masked
deriving DecidableEq

/-- One loop over the rows of a `_mzed_cling*` function: the statements (word offset, operation, terms) of the
inner loop and of the switch.  `fall`: the cases fall through, the last word is saved before the switch and
recombined under `bitmask_end` after it; otherwise every case ends in `break`. -/
structure ClingPass where
  bulk : List (Nat × ClingOp × List ClingTerm)
  cases : List (Nat × List (Nat × ClingOp × List ClingTerm))
  fall : Bool

/-- conversion.c:225-265. -/
def slicePass4_3 : SlicePass where
  bulk := [
    (0, true, [⟨0, 3, 48⟩, ⟨1, 3, 32⟩, ⟨2, 3, 16⟩, ⟨3, 3, 0⟩]),
    (1, true, [⟨0, 2, 48⟩, ⟨1, 2, 32⟩, ⟨2, 2, 16⟩, ⟨3, 2, 0⟩]),
    (2, true, [⟨0, 1, 48⟩, ⟨1, 1, 32⟩, ⟨2, 1, 16⟩, ⟨3, 1, 0⟩])]
  cases := [
    (4, [(0, ⟨3, 3, 0⟩), (1, ⟨3, 2, 0⟩), (2, ⟨3, 1, 0⟩)]),
    (3, [(0, ⟨2, 3, 16⟩), (1, ⟨2, 2, 16⟩), (2, ⟨2, 1, 16⟩)]),
    (2, [(0, ⟨1, 3, 32⟩), (1, ⟨1, 2, 32⟩), (2, ⟨1, 1, 32⟩)]),
    (1, [(0, ⟨0, 3, 48⟩), (1, ⟨0, 2, 48⟩), (2, ⟨0, 1, 48⟩)])]
  finals := [0, 1, 2]

/-- conversion.c:267-315. -/
def slicePass4_4 : SlicePass where
  bulk := [
    (0, true, [⟨0, 3, 48⟩, ⟨1, 3, 32⟩, ⟨2, 3, 16⟩, ⟨3, 3, 0⟩]),
    (1, true, [⟨0, 2, 48⟩, ⟨1, 2, 32⟩, ⟨2, 2, 16⟩, ⟨3, 2, 0⟩]),
    (2, true, [⟨0, 1, 48⟩, ⟨1, 1, 32⟩, ⟨2, 1, 16⟩, ⟨3, 1, 0⟩]),
    (3, true, [⟨0, 0, 48⟩, ⟨1, 0, 32⟩, ⟨2, 0, 16⟩, ⟨3, 0, 0⟩])]
  cases := [
    (4, [(0, ⟨3, 3, 0⟩), (1, ⟨3, 2, 0⟩), (2, ⟨3, 1, 0⟩), (3, ⟨3, 0, 0⟩)]),
    (3, [(0, ⟨2, 3, 16⟩), (1, ⟨2, 2, 16⟩), (2, ⟨2, 1, 16⟩), (3, ⟨2, 0, 16⟩)]),
    (2, [(0, ⟨1, 3, 32⟩), (1, ⟨1, 2, 32⟩), (2, ⟨1, 1, 32⟩), (3, ⟨1, 0, 32⟩)]),
    (1, [(0, ⟨0, 3, 48⟩), (1, ⟨0, 2, 48⟩), (2, ⟨0, 1, 48⟩), (3, ⟨0, 0, 48⟩)])]
  finals := [0, 1, 2, 3]

/-- conversion_slice8.c:41-180. -/
def slicePass8_8 : SlicePass where
  bulk := [
    (0, false, [⟨0, 7, 56⟩, ⟨1, 7, 48⟩, ⟨2, 7, 40⟩, ⟨3, 7, 32⟩, ⟨4, 7, 24⟩, ⟨5, 7, 16⟩, ⟨6, 7, 8⟩, ⟨7, 7, 0⟩]),
    (1, false, [⟨0, 6, 56⟩, ⟨1, 6, 48⟩, ⟨2, 6, 40⟩, ⟨3, 6, 32⟩, ⟨4, 6, 24⟩, ⟨5, 6, 16⟩, ⟨6, 6, 8⟩, ⟨7, 6, 0⟩]),
    (2, false, [⟨0, 5, 56⟩, ⟨1, 5, 48⟩, ⟨2, 5, 40⟩, ⟨3, 5, 32⟩, ⟨4, 5, 24⟩, ⟨5, 5, 16⟩, ⟨6, 5, 8⟩, ⟨7, 5, 0⟩]),
    (3, false, [⟨0, 4, 56⟩, ⟨1, 4, 48⟩, ⟨2, 4, 40⟩, ⟨3, 4, 32⟩, ⟨4, 4, 24⟩, ⟨5, 4, 16⟩, ⟨6, 4, 8⟩, ⟨7, 4, 0⟩]),
    (4, false, [⟨0, 3, 56⟩, ⟨1, 3, 48⟩, ⟨2, 3, 40⟩, ⟨3, 3, 32⟩, ⟨4, 3, 24⟩, ⟨5, 3, 16⟩, ⟨6, 3, 8⟩, ⟨7, 3, 0⟩]),
    (5, false, [⟨0, 2, 56⟩, ⟨1, 2, 48⟩, ⟨2, 2, 40⟩, ⟨3, 2, 32⟩, ⟨4, 2, 24⟩, ⟨5, 2, 16⟩, ⟨6, 2, 8⟩, ⟨7, 2, 0⟩]),
    (6, false, [⟨0, 1, 56⟩, ⟨1, 1, 48⟩, ⟨2, 1, 40⟩, ⟨3, 1, 32⟩, ⟨4, 1, 24⟩, ⟨5, 1, 16⟩, ⟨6, 1, 8⟩, ⟨7, 1, 0⟩]),
    (7, false, [⟨0, 0, 56⟩, ⟨1, 0, 48⟩, ⟨2, 0, 40⟩, ⟨3, 0, 32⟩, ⟨4, 0, 24⟩, ⟨5, 0, 16⟩, ⟨6, 0, 8⟩, ⟨7, 0, 0⟩])]
  cases := [
    (8, [(0, ⟨7, 7, 0⟩), (1, ⟨7, 6, 0⟩), (2, ⟨7, 5, 0⟩), (3, ⟨7, 4, 0⟩), (4, ⟨7, 3, 0⟩), (5, ⟨7, 2, 0⟩), (6, ⟨7, 1, 0⟩), (7, ⟨7, 0, 0⟩)]),
    (7, [(0, ⟨6, 7, 8⟩), (1, ⟨6, 6, 8⟩), (2, ⟨6, 5, 8⟩), (3, ⟨6, 4, 8⟩), (4, ⟨6, 3, 8⟩), (5, ⟨6, 2, 8⟩), (6, ⟨6, 1, 8⟩), (7, ⟨6, 0, 8⟩)]),
    (6, [(0, ⟨5, 7, 16⟩), (1, ⟨5, 6, 16⟩), (2, ⟨5, 5, 16⟩), (3, ⟨5, 4, 16⟩), (4, ⟨5, 3, 16⟩), (5, ⟨5, 2, 16⟩), (6, ⟨5, 1, 16⟩), (7, ⟨5, 0, 16⟩)]),
    (5, [(0, ⟨4, 7, 24⟩), (1, ⟨4, 6, 24⟩), (2, ⟨4, 5, 24⟩), (3, ⟨4, 4, 24⟩), (4, ⟨4, 3, 24⟩), (5, ⟨4, 2, 24⟩), (6, ⟨4, 1, 24⟩), (7, ⟨4, 0, 24⟩)]),
    (4, [(0, ⟨3, 7, 32⟩), (1, ⟨3, 6, 32⟩), (2, ⟨3, 5, 32⟩), (3, ⟨3, 4, 32⟩), (4, ⟨3, 3, 32⟩), (5, ⟨3, 2, 32⟩), (6, ⟨3, 1, 32⟩), (7, ⟨3, 0, 32⟩)]),
    (3, [(0, ⟨2, 7, 40⟩), (1, ⟨2, 6, 40⟩), (2, ⟨2, 5, 40⟩), (3, ⟨2, 4, 40⟩), (4, ⟨2, 3, 40⟩), (5, ⟨2, 2, 40⟩), (6, ⟨2, 1, 40⟩), (7, ⟨2, 0, 40⟩)]),
    (2, [(0, ⟨1, 7, 48⟩), (1, ⟨1, 6, 48⟩), (2, ⟨1, 5, 48⟩), (3, ⟨1, 4, 48⟩), (4, ⟨1, 3, 48⟩), (5, ⟨1, 2, 48⟩), (6, ⟨1, 1, 48⟩), (7, ⟨1, 0, 48⟩)]),
    (1, [(0, ⟨0, 7, 56⟩), (1, ⟨0, 6, 56⟩), (2, ⟨0, 5, 56⟩), (3, ⟨0, 4, 56⟩), (4, ⟨0, 3, 56⟩), (5, ⟨0, 2, 56⟩), (6, ⟨0, 1, 56⟩), (7, ⟨0, 0, 56⟩)])]
  finals := [0, 1, 2, 3, 4, 5, 6, 7]

/-- conversion_slice8.c:185-309. -/
def slicePass8_7 : SlicePass where
  bulk := [
    (0, false, [⟨0, 7, 56⟩, ⟨1, 7, 48⟩, ⟨2, 7, 40⟩, ⟨3, 7, 32⟩, ⟨4, 7, 24⟩, ⟨5, 7, 16⟩, ⟨6, 7, 8⟩, ⟨7, 7, 0⟩]),
    (1, false, [⟨0, 6, 56⟩, ⟨1, 6, 48⟩, ⟨2, 6, 40⟩, ⟨3, 6, 32⟩, ⟨4, 6, 24⟩, ⟨5, 6, 16⟩, ⟨6, 6, 8⟩, ⟨7, 6, 0⟩]),
    (2, false, [⟨0, 5, 56⟩, ⟨1, 5, 48⟩, ⟨2, 5, 40⟩, ⟨3, 5, 32⟩, ⟨4, 5, 24⟩, ⟨5, 5, 16⟩, ⟨6, 5, 8⟩, ⟨7, 5, 0⟩]),
    (3, false, [⟨0, 4, 56⟩, ⟨1, 4, 48⟩, ⟨2, 4, 40⟩, ⟨3, 4, 32⟩, ⟨4, 4, 24⟩, ⟨5, 4, 16⟩, ⟨6, 4, 8⟩, ⟨7, 4, 0⟩]),
    (4, false, [⟨0, 3, 56⟩, ⟨1, 3, 48⟩, ⟨2, 3, 40⟩, ⟨3, 3, 32⟩, ⟨4, 3, 24⟩, ⟨5, 3, 16⟩, ⟨6, 3, 8⟩, ⟨7, 3, 0⟩]),
    (5, false, [⟨0, 2, 56⟩, ⟨1, 2, 48⟩, ⟨2, 2, 40⟩, ⟨3, 2, 32⟩, ⟨4, 2, 24⟩, ⟨5, 2, 16⟩, ⟨6, 2, 8⟩, ⟨7, 2, 0⟩]),
    (6, false, [⟨0, 1, 56⟩, ⟨1, 1, 48⟩, ⟨2, 1, 40⟩, ⟨3, 1, 32⟩, ⟨4, 1, 24⟩, ⟨5, 1, 16⟩, ⟨6, 1, 8⟩, ⟨7, 1, 0⟩])]
  cases := [
    (8, [(0, ⟨7, 7, 0⟩), (1, ⟨7, 6, 0⟩), (2, ⟨7, 5, 0⟩), (3, ⟨7, 4, 0⟩), (4, ⟨7, 3, 0⟩), (5, ⟨7, 2, 0⟩), (6, ⟨7, 1, 0⟩)]),
    (7, [(0, ⟨6, 7, 8⟩), (1, ⟨6, 6, 8⟩), (2, ⟨6, 5, 8⟩), (3, ⟨6, 4, 8⟩), (4, ⟨6, 3, 8⟩), (5, ⟨6, 2, 8⟩), (6, ⟨6, 1, 8⟩)]),
    (6, [(0, ⟨5, 7, 16⟩), (1, ⟨5, 6, 16⟩), (2, ⟨5, 5, 16⟩), (3, ⟨5, 4, 16⟩), (4, ⟨5, 3, 16⟩), (5, ⟨5, 2, 16⟩), (6, ⟨5, 1, 16⟩)]),
    (5, [(0, ⟨4, 7, 24⟩), (1, ⟨4, 6, 24⟩), (2, ⟨4, 5, 24⟩), (3, ⟨4, 4, 24⟩), (4, ⟨4, 3, 24⟩), (5, ⟨4, 2, 24⟩), (6, ⟨4, 1, 24⟩)]),
    (4, [(0, ⟨3, 7, 32⟩), (1, ⟨3, 6, 32⟩), (2, ⟨3, 5, 32⟩), (3, ⟨3, 4, 32⟩), (4, ⟨3, 3, 32⟩), (5, ⟨3, 2, 32⟩), (6, ⟨3, 1, 32⟩)]),
    (3, [(0, ⟨2, 7, 40⟩), (1, ⟨2, 6, 40⟩), (2, ⟨2, 5, 40⟩), (3, ⟨2, 4, 40⟩), (4, ⟨2, 3, 40⟩), (5, ⟨2, 2, 40⟩), (6, ⟨2, 1, 40⟩)]),
    (2, [(0, ⟨1, 7, 48⟩), (1, ⟨1, 6, 48⟩), (2, ⟨1, 5, 48⟩), (3, ⟨1, 4, 48⟩), (4, ⟨1, 3, 48⟩), (5, ⟨1, 2, 48⟩), (6, ⟨1, 1, 48⟩)]),
    (1, [(0, ⟨0, 7, 56⟩), (1, ⟨0, 6, 56⟩), (2, ⟨0, 5, 56⟩), (3, ⟨0, 4, 56⟩), (4, ⟨0, 3, 56⟩), (5, ⟨0, 2, 56⟩), (6, ⟨0, 1, 56⟩)])]
  finals := [0, 1, 2, 3, 4, 5, 6]

/-- conversion_slice8.c:314-423. -/
def slicePass8_6 : SlicePass where
  bulk := [
    (0, false, [⟨0, 7, 56⟩, ⟨1, 7, 48⟩, ⟨2, 7, 40⟩, ⟨3, 7, 32⟩, ⟨4, 7, 24⟩, ⟨5, 7, 16⟩, ⟨6, 7, 8⟩, ⟨7, 7, 0⟩]),
    (1, false, [⟨0, 6, 56⟩, ⟨1, 6, 48⟩, ⟨2, 6, 40⟩, ⟨3, 6, 32⟩, ⟨4, 6, 24⟩, ⟨5, 6, 16⟩, ⟨6, 6, 8⟩, ⟨7, 6, 0⟩]),
    (2, false, [⟨0, 5, 56⟩, ⟨1, 5, 48⟩, ⟨2, 5, 40⟩, ⟨3, 5, 32⟩, ⟨4, 5, 24⟩, ⟨5, 5, 16⟩, ⟨6, 5, 8⟩, ⟨7, 5, 0⟩]),
    (3, false, [⟨0, 4, 56⟩, ⟨1, 4, 48⟩, ⟨2, 4, 40⟩, ⟨3, 4, 32⟩, ⟨4, 4, 24⟩, ⟨5, 4, 16⟩, ⟨6, 4, 8⟩, ⟨7, 4, 0⟩]),
    (4, false, [⟨0, 3, 56⟩, ⟨1, 3, 48⟩, ⟨2, 3, 40⟩, ⟨3, 3, 32⟩, ⟨4, 3, 24⟩, ⟨5, 3, 16⟩, ⟨6, 3, 8⟩, ⟨7, 3, 0⟩]),
    (5, false, [⟨0, 2, 56⟩, ⟨1, 2, 48⟩, ⟨2, 2, 40⟩, ⟨3, 2, 32⟩, ⟨4, 2, 24⟩, ⟨5, 2, 16⟩, ⟨6, 2, 8⟩, ⟨7, 2, 0⟩])]
  cases := [
    (8, [(0, ⟨7, 7, 0⟩), (1, ⟨7, 6, 0⟩), (2, ⟨7, 5, 0⟩), (3, ⟨7, 4, 0⟩), (4, ⟨7, 3, 0⟩), (5, ⟨7, 2, 0⟩)]),
    (7, [(0, ⟨6, 7, 8⟩), (1, ⟨6, 6, 8⟩), (2, ⟨6, 5, 8⟩), (3, ⟨6, 4, 8⟩), (4, ⟨6, 3, 8⟩), (5, ⟨6, 2, 8⟩)]),
    (6, [(0, ⟨5, 7, 16⟩), (1, ⟨5, 6, 16⟩), (2, ⟨5, 5, 16⟩), (3, ⟨5, 4, 16⟩), (4, ⟨5, 3, 16⟩), (5, ⟨5, 2, 16⟩)]),
    (5, [(0, ⟨4, 7, 24⟩), (1, ⟨4, 6, 24⟩), (2, ⟨4, 5, 24⟩), (3, ⟨4, 4, 24⟩), (4, ⟨4, 3, 24⟩), (5, ⟨4, 2, 24⟩)]),
    (4, [(0, ⟨3, 7, 32⟩), (1, ⟨3, 6, 32⟩), (2, ⟨3, 5, 32⟩), (3, ⟨3, 4, 32⟩), (4, ⟨3, 3, 32⟩), (5, ⟨3, 2, 32⟩)]),
    (3, [(0, ⟨2, 7, 40⟩), (1, ⟨2, 6, 40⟩), (2, ⟨2, 5, 40⟩), (3, ⟨2, 4, 40⟩), (4, ⟨2, 3, 40⟩), (5, ⟨2, 2, 40⟩)]),
    (2, [(0, ⟨1, 7, 48⟩), (1, ⟨1, 6, 48⟩), (2, ⟨1, 5, 48⟩), (3, ⟨1, 4, 48⟩), (4, ⟨1, 3, 48⟩), (5, ⟨1, 2, 48⟩)]),
    (1, [(0, ⟨0, 7, 56⟩), (1, ⟨0, 6, 56⟩), (2, ⟨0, 5, 56⟩), (3, ⟨0, 4, 56⟩), (4, ⟨0, 3, 56⟩), (5, ⟨0, 2, 56⟩)])]
  finals := [0, 1, 2, 3, 4, 5]

/-- conversion_slice8.c:428-522. -/
def slicePass8_5 : SlicePass where
  bulk := [
    (0, false, [⟨0, 7, 56⟩, ⟨1, 7, 48⟩, ⟨2, 7, 40⟩, ⟨3, 7, 32⟩, ⟨4, 7, 24⟩, ⟨5, 7, 16⟩, ⟨6, 7, 8⟩, ⟨7, 7, 0⟩]),
    (1, false, [⟨0, 6, 56⟩, ⟨1, 6, 48⟩, ⟨2, 6, 40⟩, ⟨3, 6, 32⟩, ⟨4, 6, 24⟩, ⟨5, 6, 16⟩, ⟨6, 6, 8⟩, ⟨7, 6, 0⟩]),
    (2, false, [⟨0, 5, 56⟩, ⟨1, 5, 48⟩, ⟨2, 5, 40⟩, ⟨3, 5, 32⟩, ⟨4, 5, 24⟩, ⟨5, 5, 16⟩, ⟨6, 5, 8⟩, ⟨7, 5, 0⟩]),
    (3, false, [⟨0, 4, 56⟩, ⟨1, 4, 48⟩, ⟨2, 4, 40⟩, ⟨3, 4, 32⟩, ⟨4, 4, 24⟩, ⟨5, 4, 16⟩, ⟨6, 4, 8⟩, ⟨7, 4, 0⟩]),
    (4, false, [⟨0, 3, 56⟩, ⟨1, 3, 48⟩, ⟨2, 3, 40⟩, ⟨3, 3, 32⟩, ⟨4, 3, 24⟩, ⟨5, 3, 16⟩, ⟨6, 3, 8⟩, ⟨7, 3, 0⟩])]
  cases := [
    (8, [(0, ⟨7, 7, 0⟩), (1, ⟨7, 6, 0⟩), (2, ⟨7, 5, 0⟩), (3, ⟨7, 4, 0⟩), (4, ⟨7, 3, 0⟩)]),
    (7, [(0, ⟨6, 7, 8⟩), (1, ⟨6, 6, 8⟩), (2, ⟨6, 5, 8⟩), (3, ⟨6, 4, 8⟩), (4, ⟨6, 3, 8⟩)]),
    (6, [(0, ⟨5, 7, 16⟩), (1, ⟨5, 6, 16⟩), (2, ⟨5, 5, 16⟩), (3, ⟨5, 4, 16⟩), (4, ⟨5, 3, 16⟩)]),
    (5, [(0, ⟨4, 7, 24⟩), (1, ⟨4, 6, 24⟩), (2, ⟨4, 5, 24⟩), (3, ⟨4, 4, 24⟩), (4, ⟨4, 3, 24⟩)]),
    (4, [(0, ⟨3, 7, 32⟩), (1, ⟨3, 6, 32⟩), (2, ⟨3, 5, 32⟩), (3, ⟨3, 4, 32⟩), (4, ⟨3, 3, 32⟩)]),
    (3, [(0, ⟨2, 7, 40⟩), (1, ⟨2, 6, 40⟩), (2, ⟨2, 5, 40⟩), (3, ⟨2, 4, 40⟩), (4, ⟨2, 3, 40⟩)]),
    (2, [(0, ⟨1, 7, 48⟩), (1, ⟨1, 6, 48⟩), (2, ⟨1, 5, 48⟩), (3, ⟨1, 4, 48⟩), (4, ⟨1, 3, 48⟩)]),
    (1, [(0, ⟨0, 7, 56⟩), (1, ⟨0, 6, 56⟩), (2, ⟨0, 5, 56⟩), (3, ⟨0, 4, 56⟩), (4, ⟨0, 3, 56⟩)])]
  finals := [0, 1, 2, 3, 4]

/-- conversion_slice16.c:63-115. -/
def slicePass16_lo : SlicePass where
  bulk := [
    (0, false, [⟨0, 15, 60⟩, ⟨1, 15, 56⟩, ⟨2, 15, 52⟩, ⟨3, 15, 48⟩, ⟨4, 15, 44⟩, ⟨5, 15, 40⟩, ⟨6, 15, 36⟩, ⟨7, 15, 32⟩, ⟨8, 15, 28⟩, ⟨9, 15, 24⟩, ⟨10, 15, 20⟩, ⟨11, 15, 16⟩, ⟨12, 15, 12⟩, ⟨13, 15, 8⟩, ⟨14, 15, 4⟩, ⟨15, 15, 0⟩]),
    (1, false, [⟨0, 14, 60⟩, ⟨1, 14, 56⟩, ⟨2, 14, 52⟩, ⟨3, 14, 48⟩, ⟨4, 14, 44⟩, ⟨5, 14, 40⟩, ⟨6, 14, 36⟩, ⟨7, 14, 32⟩, ⟨8, 14, 28⟩, ⟨9, 14, 24⟩, ⟨10, 14, 20⟩, ⟨11, 14, 16⟩, ⟨12, 14, 12⟩, ⟨13, 14, 8⟩, ⟨14, 14, 4⟩, ⟨15, 14, 0⟩]),
    (2, false, [⟨0, 13, 60⟩, ⟨1, 13, 56⟩, ⟨2, 13, 52⟩, ⟨3, 13, 48⟩, ⟨4, 13, 44⟩, ⟨5, 13, 40⟩, ⟨6, 13, 36⟩, ⟨7, 13, 32⟩, ⟨8, 13, 28⟩, ⟨9, 13, 24⟩, ⟨10, 13, 20⟩, ⟨11, 13, 16⟩, ⟨12, 13, 12⟩, ⟨13, 13, 8⟩, ⟨14, 13, 4⟩, ⟨15, 13, 0⟩]),
    (3, false, [⟨0, 12, 60⟩, ⟨1, 12, 56⟩, ⟨2, 12, 52⟩, ⟨3, 12, 48⟩, ⟨4, 12, 44⟩, ⟨5, 12, 40⟩, ⟨6, 12, 36⟩, ⟨7, 12, 32⟩, ⟨8, 12, 28⟩, ⟨9, 12, 24⟩, ⟨10, 12, 20⟩, ⟨11, 12, 16⟩, ⟨12, 12, 12⟩, ⟨13, 12, 8⟩, ⟨14, 12, 4⟩, ⟨15, 12, 0⟩]),
    (4, false, [⟨0, 11, 60⟩, ⟨1, 11, 56⟩, ⟨2, 11, 52⟩, ⟨3, 11, 48⟩, ⟨4, 11, 44⟩, ⟨5, 11, 40⟩, ⟨6, 11, 36⟩, ⟨7, 11, 32⟩, ⟨8, 11, 28⟩, ⟨9, 11, 24⟩, ⟨10, 11, 20⟩, ⟨11, 11, 16⟩, ⟨12, 11, 12⟩, ⟨13, 11, 8⟩, ⟨14, 11, 4⟩, ⟨15, 11, 0⟩]),
    (5, false, [⟨0, 10, 60⟩, ⟨1, 10, 56⟩, ⟨2, 10, 52⟩, ⟨3, 10, 48⟩, ⟨4, 10, 44⟩, ⟨5, 10, 40⟩, ⟨6, 10, 36⟩, ⟨7, 10, 32⟩, ⟨8, 10, 28⟩, ⟨9, 10, 24⟩, ⟨10, 10, 20⟩, ⟨11, 10, 16⟩, ⟨12, 10, 12⟩, ⟨13, 10, 8⟩, ⟨14, 10, 4⟩, ⟨15, 10, 0⟩]),
    (6, false, [⟨0, 9, 60⟩, ⟨1, 9, 56⟩, ⟨2, 9, 52⟩, ⟨3, 9, 48⟩, ⟨4, 9, 44⟩, ⟨5, 9, 40⟩, ⟨6, 9, 36⟩, ⟨7, 9, 32⟩, ⟨8, 9, 28⟩, ⟨9, 9, 24⟩, ⟨10, 9, 20⟩, ⟨11, 9, 16⟩, ⟨12, 9, 12⟩, ⟨13, 9, 8⟩, ⟨14, 9, 4⟩, ⟨15, 9, 0⟩]),
    (7, false, [⟨0, 8, 60⟩, ⟨1, 8, 56⟩, ⟨2, 8, 52⟩, ⟨3, 8, 48⟩, ⟨4, 8, 44⟩, ⟨5, 8, 40⟩, ⟨6, 8, 36⟩, ⟨7, 8, 32⟩, ⟨8, 8, 28⟩, ⟨9, 8, 24⟩, ⟨10, 8, 20⟩, ⟨11, 8, 16⟩, ⟨12, 8, 12⟩, ⟨13, 8, 8⟩, ⟨14, 8, 4⟩, ⟨15, 8, 0⟩])]
  cases := [
    (16, [(0, ⟨15, 15, 0⟩), (1, ⟨15, 14, 0⟩), (2, ⟨15, 13, 0⟩), (3, ⟨15, 12, 0⟩), (4, ⟨15, 11, 0⟩), (5, ⟨15, 10, 0⟩), (6, ⟨15, 9, 0⟩), (7, ⟨15, 8, 0⟩)]),
    (15, [(0, ⟨14, 15, 4⟩), (1, ⟨14, 14, 4⟩), (2, ⟨14, 13, 4⟩), (3, ⟨14, 12, 4⟩), (4, ⟨14, 11, 4⟩), (5, ⟨14, 10, 4⟩), (6, ⟨14, 9, 4⟩), (7, ⟨14, 8, 4⟩)]),
    (14, [(0, ⟨13, 15, 8⟩), (1, ⟨13, 14, 8⟩), (2, ⟨13, 13, 8⟩), (3, ⟨13, 12, 8⟩), (4, ⟨13, 11, 8⟩), (5, ⟨13, 10, 8⟩), (6, ⟨13, 9, 8⟩), (7, ⟨13, 8, 8⟩)]),
    (13, [(0, ⟨12, 15, 12⟩), (1, ⟨12, 14, 12⟩), (2, ⟨12, 13, 12⟩), (3, ⟨12, 12, 12⟩), (4, ⟨12, 11, 12⟩), (5, ⟨12, 10, 12⟩), (6, ⟨12, 9, 12⟩), (7, ⟨12, 8, 12⟩)]),
    (12, [(0, ⟨11, 15, 16⟩), (1, ⟨11, 14, 16⟩), (2, ⟨11, 13, 16⟩), (3, ⟨11, 12, 16⟩), (4, ⟨11, 11, 16⟩), (5, ⟨11, 10, 16⟩), (6, ⟨11, 9, 16⟩), (7, ⟨11, 8, 16⟩)]),
    (11, [(0, ⟨10, 15, 20⟩), (1, ⟨10, 14, 20⟩), (2, ⟨10, 13, 20⟩), (3, ⟨10, 12, 20⟩), (4, ⟨10, 11, 20⟩), (5, ⟨10, 10, 20⟩), (6, ⟨10, 9, 20⟩), (7, ⟨10, 8, 20⟩)]),
    (10, [(0, ⟨9, 15, 24⟩), (1, ⟨9, 14, 24⟩), (2, ⟨9, 13, 24⟩), (3, ⟨9, 12, 24⟩), (4, ⟨9, 11, 24⟩), (5, ⟨9, 10, 24⟩), (6, ⟨9, 9, 24⟩), (7, ⟨9, 8, 24⟩)]),
    (9, [(0, ⟨8, 15, 28⟩), (1, ⟨8, 14, 28⟩), (2, ⟨8, 13, 28⟩), (3, ⟨8, 12, 28⟩), (4, ⟨8, 11, 28⟩), (5, ⟨8, 10, 28⟩), (6, ⟨8, 9, 28⟩), (7, ⟨8, 8, 28⟩)]),
    (8, [(0, ⟨7, 15, 32⟩), (1, ⟨7, 14, 32⟩), (2, ⟨7, 13, 32⟩), (3, ⟨7, 12, 32⟩), (4, ⟨7, 11, 32⟩), (5, ⟨7, 10, 32⟩), (6, ⟨7, 9, 32⟩), (7, ⟨7, 8, 32⟩)]),
    (7, [(0, ⟨6, 15, 36⟩), (1, ⟨6, 14, 36⟩), (2, ⟨6, 13, 36⟩), (3, ⟨6, 12, 36⟩), (4, ⟨6, 11, 36⟩), (5, ⟨6, 10, 36⟩), (6, ⟨6, 9, 36⟩), (7, ⟨6, 8, 36⟩)]),
    (6, [(0, ⟨5, 15, 40⟩), (1, ⟨5, 14, 40⟩), (2, ⟨5, 13, 40⟩), (3, ⟨5, 12, 40⟩), (4, ⟨5, 11, 40⟩), (5, ⟨5, 10, 40⟩), (6, ⟨5, 9, 40⟩), (7, ⟨5, 8, 40⟩)]),
    (5, [(0, ⟨4, 15, 44⟩), (1, ⟨4, 14, 44⟩), (2, ⟨4, 13, 44⟩), (3, ⟨4, 12, 44⟩), (4, ⟨4, 11, 44⟩), (5, ⟨4, 10, 44⟩), (6, ⟨4, 9, 44⟩), (7, ⟨4, 8, 44⟩)]),
    (4, [(0, ⟨3, 15, 48⟩), (1, ⟨3, 14, 48⟩), (2, ⟨3, 13, 48⟩), (3, ⟨3, 12, 48⟩), (4, ⟨3, 11, 48⟩), (5, ⟨3, 10, 48⟩), (6, ⟨3, 9, 48⟩), (7, ⟨3, 8, 48⟩)]),
    (3, [(0, ⟨2, 15, 52⟩), (1, ⟨2, 14, 52⟩), (2, ⟨2, 13, 52⟩), (3, ⟨2, 12, 52⟩), (4, ⟨2, 11, 52⟩), (5, ⟨2, 10, 52⟩), (6, ⟨2, 9, 52⟩), (7, ⟨2, 8, 52⟩)]),
    (2, [(0, ⟨1, 15, 56⟩), (1, ⟨1, 14, 56⟩), (2, ⟨1, 13, 56⟩), (3, ⟨1, 12, 56⟩), (4, ⟨1, 11, 56⟩), (5, ⟨1, 10, 56⟩), (6, ⟨1, 9, 56⟩), (7, ⟨1, 8, 56⟩)]),
    (1, [(0, ⟨0, 15, 60⟩), (1, ⟨0, 14, 60⟩), (2, ⟨0, 13, 60⟩), (3, ⟨0, 12, 60⟩), (4, ⟨0, 11, 60⟩), (5, ⟨0, 10, 60⟩), (6, ⟨0, 9, 60⟩), (7, ⟨0, 8, 60⟩)])]
  finals := [0, 1, 2, 3, 4, 5, 6, 7]

/-- conversion_slice16.c:117-157. -/
def slicePass16_mid : SlicePass where
  bulk := [
    (8, false, [⟨0, 7, 60⟩, ⟨1, 7, 56⟩, ⟨2, 7, 52⟩, ⟨3, 7, 48⟩, ⟨4, 7, 44⟩, ⟨5, 7, 40⟩, ⟨6, 7, 36⟩, ⟨7, 7, 32⟩, ⟨8, 7, 28⟩, ⟨9, 7, 24⟩, ⟨10, 7, 20⟩, ⟨11, 7, 16⟩, ⟨12, 7, 12⟩, ⟨13, 7, 8⟩, ⟨14, 7, 4⟩, ⟨15, 7, 0⟩]),
    (9, false, [⟨0, 6, 60⟩, ⟨1, 6, 56⟩, ⟨2, 6, 52⟩, ⟨3, 6, 48⟩, ⟨4, 6, 44⟩, ⟨5, 6, 40⟩, ⟨6, 6, 36⟩, ⟨7, 6, 32⟩, ⟨8, 6, 28⟩, ⟨9, 6, 24⟩, ⟨10, 6, 20⟩, ⟨11, 6, 16⟩, ⟨12, 6, 12⟩, ⟨13, 6, 8⟩, ⟨14, 6, 4⟩, ⟨15, 6, 0⟩]),
    (10, false, [⟨0, 5, 60⟩, ⟨1, 5, 56⟩, ⟨2, 5, 52⟩, ⟨3, 5, 48⟩, ⟨4, 5, 44⟩, ⟨5, 5, 40⟩, ⟨6, 5, 36⟩, ⟨7, 5, 32⟩, ⟨8, 5, 28⟩, ⟨9, 5, 24⟩, ⟨10, 5, 20⟩, ⟨11, 5, 16⟩, ⟨12, 5, 12⟩, ⟨13, 5, 8⟩, ⟨14, 5, 4⟩, ⟨15, 5, 0⟩]),
    (11, false, [⟨0, 4, 60⟩, ⟨1, 4, 56⟩, ⟨2, 4, 52⟩, ⟨3, 4, 48⟩, ⟨4, 4, 44⟩, ⟨5, 4, 40⟩, ⟨6, 4, 36⟩, ⟨7, 4, 32⟩, ⟨8, 4, 28⟩, ⟨9, 4, 24⟩, ⟨10, 4, 20⟩, ⟨11, 4, 16⟩, ⟨12, 4, 12⟩, ⟨13, 4, 8⟩, ⟨14, 4, 4⟩, ⟨15, 4, 0⟩])]
  cases := [
    (16, [(8, ⟨15, 7, 0⟩), (9, ⟨15, 6, 0⟩), (10, ⟨15, 5, 0⟩), (11, ⟨15, 4, 0⟩)]),
    (15, [(8, ⟨14, 7, 4⟩), (9, ⟨14, 6, 4⟩), (10, ⟨14, 5, 4⟩), (11, ⟨14, 4, 4⟩)]),
    (14, [(8, ⟨13, 7, 8⟩), (9, ⟨13, 6, 8⟩), (10, ⟨13, 5, 8⟩), (11, ⟨13, 4, 8⟩)]),
    (13, [(8, ⟨12, 7, 12⟩), (9, ⟨12, 6, 12⟩), (10, ⟨12, 5, 12⟩), (11, ⟨12, 4, 12⟩)]),
    (12, [(8, ⟨11, 7, 16⟩), (9, ⟨11, 6, 16⟩), (10, ⟨11, 5, 16⟩), (11, ⟨11, 4, 16⟩)]),
    (11, [(8, ⟨10, 7, 20⟩), (9, ⟨10, 6, 20⟩), (10, ⟨10, 5, 20⟩), (11, ⟨10, 4, 20⟩)]),
    (10, [(8, ⟨9, 7, 24⟩), (9, ⟨9, 6, 24⟩), (10, ⟨9, 5, 24⟩), (11, ⟨9, 4, 24⟩)]),
    (9, [(8, ⟨8, 7, 28⟩), (9, ⟨8, 6, 28⟩), (10, ⟨8, 5, 28⟩), (11, ⟨8, 4, 28⟩)]),
    (8, [(8, ⟨7, 7, 32⟩), (9, ⟨7, 6, 32⟩), (10, ⟨7, 5, 32⟩), (11, ⟨7, 4, 32⟩)]),
    (7, [(8, ⟨6, 7, 36⟩), (9, ⟨6, 6, 36⟩), (10, ⟨6, 5, 36⟩), (11, ⟨6, 4, 36⟩)]),
    (6, [(8, ⟨5, 7, 40⟩), (9, ⟨5, 6, 40⟩), (10, ⟨5, 5, 40⟩), (11, ⟨5, 4, 40⟩)]),
    (5, [(8, ⟨4, 7, 44⟩), (9, ⟨4, 6, 44⟩), (10, ⟨4, 5, 44⟩), (11, ⟨4, 4, 44⟩)]),
    (4, [(8, ⟨3, 7, 48⟩), (9, ⟨3, 6, 48⟩), (10, ⟨3, 5, 48⟩), (11, ⟨3, 4, 48⟩)]),
    (3, [(8, ⟨2, 7, 52⟩), (9, ⟨2, 6, 52⟩), (10, ⟨2, 5, 52⟩), (11, ⟨2, 4, 52⟩)]),
    (2, [(8, ⟨1, 7, 56⟩), (9, ⟨1, 6, 56⟩), (10, ⟨1, 5, 56⟩), (11, ⟨1, 4, 56⟩)]),
    (1, [(8, ⟨0, 7, 60⟩), (9, ⟨0, 6, 60⟩), (10, ⟨0, 5, 60⟩), (11, ⟨0, 4, 60⟩)])]
  finals := [8, 9, 10, 11]

/-- conversion_slice16.c:161-201. -/
def slicePass16_16 : SlicePass where
  bulk := [
    (12, false, [⟨0, 3, 60⟩, ⟨1, 3, 56⟩, ⟨2, 3, 52⟩, ⟨3, 3, 48⟩, ⟨4, 3, 44⟩, ⟨5, 3, 40⟩, ⟨6, 3, 36⟩, ⟨7, 3, 32⟩, ⟨8, 3, 28⟩, ⟨9, 3, 24⟩, ⟨10, 3, 20⟩, ⟨11, 3, 16⟩, ⟨12, 3, 12⟩, ⟨13, 3, 8⟩, ⟨14, 3, 4⟩, ⟨15, 3, 0⟩]),
    (13, false, [⟨0, 2, 60⟩, ⟨1, 2, 56⟩, ⟨2, 2, 52⟩, ⟨3, 2, 48⟩, ⟨4, 2, 44⟩, ⟨5, 2, 40⟩, ⟨6, 2, 36⟩, ⟨7, 2, 32⟩, ⟨8, 2, 28⟩, ⟨9, 2, 24⟩, ⟨10, 2, 20⟩, ⟨11, 2, 16⟩, ⟨12, 2, 12⟩, ⟨13, 2, 8⟩, ⟨14, 2, 4⟩, ⟨15, 2, 0⟩]),
    (14, false, [⟨0, 1, 60⟩, ⟨1, 1, 56⟩, ⟨2, 1, 52⟩, ⟨3, 1, 48⟩, ⟨4, 1, 44⟩, ⟨5, 1, 40⟩, ⟨6, 1, 36⟩, ⟨7, 1, 32⟩, ⟨8, 1, 28⟩, ⟨9, 1, 24⟩, ⟨10, 1, 20⟩, ⟨11, 1, 16⟩, ⟨12, 1, 12⟩, ⟨13, 1, 8⟩, ⟨14, 1, 4⟩, ⟨15, 1, 0⟩]),
    (15, false, [⟨0, 0, 60⟩, ⟨1, 0, 56⟩, ⟨2, 0, 52⟩, ⟨3, 0, 48⟩, ⟨4, 0, 44⟩, ⟨5, 0, 40⟩, ⟨6, 0, 36⟩, ⟨7, 0, 32⟩, ⟨8, 0, 28⟩, ⟨9, 0, 24⟩, ⟨10, 0, 20⟩, ⟨11, 0, 16⟩, ⟨12, 0, 12⟩, ⟨13, 0, 8⟩, ⟨14, 0, 4⟩, ⟨15, 0, 0⟩])]
  cases := [
    (16, [(12, ⟨15, 3, 0⟩), (13, ⟨15, 2, 0⟩), (14, ⟨15, 1, 0⟩), (15, ⟨15, 0, 0⟩)]),
    (15, [(12, ⟨14, 3, 4⟩), (13, ⟨14, 2, 4⟩), (14, ⟨14, 1, 4⟩), (15, ⟨14, 0, 4⟩)]),
    (14, [(12, ⟨13, 3, 8⟩), (13, ⟨13, 2, 8⟩), (14, ⟨13, 1, 8⟩), (15, ⟨13, 0, 8⟩)]),
    (13, [(12, ⟨12, 3, 12⟩), (13, ⟨12, 2, 12⟩), (14, ⟨12, 1, 12⟩), (15, ⟨12, 0, 12⟩)]),
    (12, [(12, ⟨11, 3, 16⟩), (13, ⟨11, 2, 16⟩), (14, ⟨11, 1, 16⟩), (15, ⟨11, 0, 16⟩)]),
    (11, [(12, ⟨10, 3, 20⟩), (13, ⟨10, 2, 20⟩), (14, ⟨10, 1, 20⟩), (15, ⟨10, 0, 20⟩)]),
    (10, [(12, ⟨9, 3, 24⟩), (13, ⟨9, 2, 24⟩), (14, ⟨9, 1, 24⟩), (15, ⟨9, 0, 24⟩)]),
    (9, [(12, ⟨8, 3, 28⟩), (13, ⟨8, 2, 28⟩), (14, ⟨8, 1, 28⟩), (15, ⟨8, 0, 28⟩)]),
    (8, [(12, ⟨7, 3, 32⟩), (13, ⟨7, 2, 32⟩), (14, ⟨7, 1, 32⟩), (15, ⟨7, 0, 32⟩)]),
    (7, [(12, ⟨6, 3, 36⟩), (13, ⟨6, 2, 36⟩), (14, ⟨6, 1, 36⟩), (15, ⟨6, 0, 36⟩)]),
    (6, [(12, ⟨5, 3, 40⟩), (13, ⟨5, 2, 40⟩), (14, ⟨5, 1, 40⟩), (15, ⟨5, 0, 40⟩)]),
    (5, [(12, ⟨4, 3, 44⟩), (13, ⟨4, 2, 44⟩), (14, ⟨4, 1, 44⟩), (15, ⟨4, 0, 44⟩)]),
    (4, [(12, ⟨3, 3, 48⟩), (13, ⟨3, 2, 48⟩), (14, ⟨3, 1, 48⟩), (15, ⟨3, 0, 48⟩)]),
    (3, [(12, ⟨2, 3, 52⟩), (13, ⟨2, 2, 52⟩), (14, ⟨2, 1, 52⟩), (15, ⟨2, 0, 52⟩)]),
    (2, [(12, ⟨1, 3, 56⟩), (13, ⟨1, 2, 56⟩), (14, ⟨1, 1, 56⟩), (15, ⟨1, 0, 56⟩)]),
    (1, [(12, ⟨0, 3, 60⟩), (13, ⟨0, 2, 60⟩), (14, ⟨0, 1, 60⟩), (15, ⟨0, 0, 60⟩)])]
  finals := [12, 13, 14, 15]

/-- conversion_slice16.c:204-241. -/
def slicePass16_15 : SlicePass where
  bulk := [
    (12, false, [⟨0, 3, 60⟩, ⟨1, 3, 56⟩, ⟨2, 3, 52⟩, ⟨3, 3, 48⟩, ⟨4, 3, 44⟩, ⟨5, 3, 40⟩, ⟨6, 3, 36⟩, ⟨7, 3, 32⟩, ⟨8, 3, 28⟩, ⟨9, 3, 24⟩, ⟨10, 3, 20⟩, ⟨11, 3, 16⟩, ⟨12, 3, 12⟩, ⟨13, 3, 8⟩, ⟨14, 3, 4⟩, ⟨15, 3, 0⟩]),
    (13, false, [⟨0, 2, 60⟩, ⟨1, 2, 56⟩, ⟨2, 2, 52⟩, ⟨3, 2, 48⟩, ⟨4, 2, 44⟩, ⟨5, 2, 40⟩, ⟨6, 2, 36⟩, ⟨7, 2, 32⟩, ⟨8, 2, 28⟩, ⟨9, 2, 24⟩, ⟨10, 2, 20⟩, ⟨11, 2, 16⟩, ⟨12, 2, 12⟩, ⟨13, 2, 8⟩, ⟨14, 2, 4⟩, ⟨15, 2, 0⟩]),
    (14, false, [⟨0, 1, 60⟩, ⟨1, 1, 56⟩, ⟨2, 1, 52⟩, ⟨3, 1, 48⟩, ⟨4, 1, 44⟩, ⟨5, 1, 40⟩, ⟨6, 1, 36⟩, ⟨7, 1, 32⟩, ⟨8, 1, 28⟩, ⟨9, 1, 24⟩, ⟨10, 1, 20⟩, ⟨11, 1, 16⟩, ⟨12, 1, 12⟩, ⟨13, 1, 8⟩, ⟨14, 1, 4⟩, ⟨15, 1, 0⟩])]
  cases := [
    (16, [(12, ⟨15, 3, 0⟩), (13, ⟨15, 2, 0⟩), (14, ⟨15, 1, 0⟩)]),
    (15, [(12, ⟨14, 3, 4⟩), (13, ⟨14, 2, 4⟩), (14, ⟨14, 1, 4⟩)]),
    (14, [(12, ⟨13, 3, 8⟩), (13, ⟨13, 2, 8⟩), (14, ⟨13, 1, 8⟩)]),
    (13, [(12, ⟨12, 3, 12⟩), (13, ⟨12, 2, 12⟩), (14, ⟨12, 1, 12⟩)]),
    (12, [(12, ⟨11, 3, 16⟩), (13, ⟨11, 2, 16⟩), (14, ⟨11, 1, 16⟩)]),
    (11, [(12, ⟨10, 3, 20⟩), (13, ⟨10, 2, 20⟩), (14, ⟨10, 1, 20⟩)]),
    (10, [(12, ⟨9, 3, 24⟩), (13, ⟨9, 2, 24⟩), (14, ⟨9, 1, 24⟩)]),
    (9, [(12, ⟨8, 3, 28⟩), (13, ⟨8, 2, 28⟩), (14, ⟨8, 1, 28⟩)]),
    (8, [(12, ⟨7, 3, 32⟩), (13, ⟨7, 2, 32⟩), (14, ⟨7, 1, 32⟩)]),
    (7, [(12, ⟨6, 3, 36⟩), (13, ⟨6, 2, 36⟩), (14, ⟨6, 1, 36⟩)]),
    (6, [(12, ⟨5, 3, 40⟩), (13, ⟨5, 2, 40⟩), (14, ⟨5, 1, 40⟩)]),
    (5, [(12, ⟨4, 3, 44⟩), (13, ⟨4, 2, 44⟩), (14, ⟨4, 1, 44⟩)]),
    (4, [(12, ⟨3, 3, 48⟩), (13, ⟨3, 2, 48⟩), (14, ⟨3, 1, 48⟩)]),
    (3, [(12, ⟨2, 3, 52⟩), (13, ⟨2, 2, 52⟩), (14, ⟨2, 1, 52⟩)]),
    (2, [(12, ⟨1, 3, 56⟩), (13, ⟨1, 2, 56⟩), (14, ⟨1, 1, 56⟩)]),
    (1, [(12, ⟨0, 3, 60⟩), (13, ⟨0, 2, 60⟩), (14, ⟨0, 1, 60⟩)])]
  finals := [12, 13, 14]

/-- conversion_slice16.c:244-278. -/
def slicePass16_14 : SlicePass where
  bulk := [
    (12, false, [⟨0, 3, 60⟩, ⟨1, 3, 56⟩, ⟨2, 3, 52⟩, ⟨3, 3, 48⟩, ⟨4, 3, 44⟩, ⟨5, 3, 40⟩, ⟨6, 3, 36⟩, ⟨7, 3, 32⟩, ⟨8, 3, 28⟩, ⟨9, 3, 24⟩, ⟨10, 3, 20⟩, ⟨11, 3, 16⟩, ⟨12, 3, 12⟩, ⟨13, 3, 8⟩, ⟨14, 3, 4⟩, ⟨15, 3, 0⟩]),
    (13, false, [⟨0, 2, 60⟩, ⟨1, 2, 56⟩, ⟨2, 2, 52⟩, ⟨3, 2, 48⟩, ⟨4, 2, 44⟩, ⟨5, 2, 40⟩, ⟨6, 2, 36⟩, ⟨7, 2, 32⟩, ⟨8, 2, 28⟩, ⟨9, 2, 24⟩, ⟨10, 2, 20⟩, ⟨11, 2, 16⟩, ⟨12, 2, 12⟩, ⟨13, 2, 8⟩, ⟨14, 2, 4⟩, ⟨15, 2, 0⟩])]
  cases := [
    (16, [(12, ⟨15, 3, 0⟩), (13, ⟨15, 2, 0⟩)]),
    (15, [(12, ⟨14, 3, 4⟩), (13, ⟨14, 2, 4⟩)]),
    (14, [(12, ⟨13, 3, 8⟩), (13, ⟨13, 2, 8⟩)]),
    (13, [(12, ⟨12, 3, 12⟩), (13, ⟨12, 2, 12⟩)]),
    (12, [(12, ⟨11, 3, 16⟩), (13, ⟨11, 2, 16⟩)]),
    (11, [(12, ⟨10, 3, 20⟩), (13, ⟨10, 2, 20⟩)]),
    (10, [(12, ⟨9, 3, 24⟩), (13, ⟨9, 2, 24⟩)]),
    (9, [(12, ⟨8, 3, 28⟩), (13, ⟨8, 2, 28⟩)]),
    (8, [(12, ⟨7, 3, 32⟩), (13, ⟨7, 2, 32⟩)]),
    (7, [(12, ⟨6, 3, 36⟩), (13, ⟨6, 2, 36⟩)]),
    (6, [(12, ⟨5, 3, 40⟩), (13, ⟨5, 2, 40⟩)]),
    (5, [(12, ⟨4, 3, 44⟩), (13, ⟨4, 2, 44⟩)]),
    (4, [(12, ⟨3, 3, 48⟩), (13, ⟨3, 2, 48⟩)]),
    (3, [(12, ⟨2, 3, 52⟩), (13, ⟨2, 2, 52⟩)]),
    (2, [(12, ⟨1, 3, 56⟩), (13, ⟨1, 2, 56⟩)]),
    (1, [(12, ⟨0, 3, 60⟩), (13, ⟨0, 2, 60⟩)])]
  finals := [12, 13]

/-- conversion_slice16.c:281-312. -/
def slicePass16_13 : SlicePass where
  bulk := [
    (12, false, [⟨0, 3, 60⟩, ⟨1, 3, 56⟩, ⟨2, 3, 52⟩, ⟨3, 3, 48⟩, ⟨4, 3, 44⟩, ⟨5, 3, 40⟩, ⟨6, 3, 36⟩, ⟨7, 3, 32⟩, ⟨8, 3, 28⟩, ⟨9, 3, 24⟩, ⟨10, 3, 20⟩, ⟨11, 3, 16⟩, ⟨12, 3, 12⟩, ⟨13, 3, 8⟩, ⟨14, 3, 4⟩, ⟨15, 3, 0⟩])]
  cases := [
    (16, [(12, ⟨15, 3, 0⟩)]),
    (15, [(12, ⟨14, 3, 4⟩)]),
    (14, [(12, ⟨13, 3, 8⟩)]),
    (13, [(12, ⟨12, 3, 12⟩)]),
    (12, [(12, ⟨11, 3, 16⟩)]),
    (11, [(12, ⟨10, 3, 20⟩)]),
    (10, [(12, ⟨9, 3, 24⟩)]),
    (9, [(12, ⟨8, 3, 28⟩)]),
    (8, [(12, ⟨7, 3, 32⟩)]),
    (7, [(12, ⟨6, 3, 36⟩)]),
    (6, [(12, ⟨5, 3, 40⟩)]),
    (5, [(12, ⟨4, 3, 44⟩)]),
    (4, [(12, ⟨3, 3, 48⟩)]),
    (3, [(12, ⟨2, 3, 52⟩)]),
    (2, [(12, ⟨1, 3, 56⟩)]),
    (1, [(12, ⟨0, 3, 60⟩)])]
  finals := [12]

/-- conversion_slice16.c:318-355. -/
def slicePass16_11 : SlicePass where
  bulk := [
    (8, false, [⟨0, 7, 60⟩, ⟨1, 7, 56⟩, ⟨2, 7, 52⟩, ⟨3, 7, 48⟩, ⟨4, 7, 44⟩, ⟨5, 7, 40⟩, ⟨6, 7, 36⟩, ⟨7, 7, 32⟩, ⟨8, 7, 28⟩, ⟨9, 7, 24⟩, ⟨10, 7, 20⟩, ⟨11, 7, 16⟩, ⟨12, 7, 12⟩, ⟨13, 7, 8⟩, ⟨14, 7, 4⟩, ⟨15, 7, 0⟩]),
    (9, false, [⟨0, 6, 60⟩, ⟨1, 6, 56⟩, ⟨2, 6, 52⟩, ⟨3, 6, 48⟩, ⟨4, 6, 44⟩, ⟨5, 6, 40⟩, ⟨6, 6, 36⟩, ⟨7, 6, 32⟩, ⟨8, 6, 28⟩, ⟨9, 6, 24⟩, ⟨10, 6, 20⟩, ⟨11, 6, 16⟩, ⟨12, 6, 12⟩, ⟨13, 6, 8⟩, ⟨14, 6, 4⟩, ⟨15, 6, 0⟩]),
    (10, false, [⟨0, 5, 60⟩, ⟨1, 5, 56⟩, ⟨2, 5, 52⟩, ⟨3, 5, 48⟩, ⟨4, 5, 44⟩, ⟨5, 5, 40⟩, ⟨6, 5, 36⟩, ⟨7, 5, 32⟩, ⟨8, 5, 28⟩, ⟨9, 5, 24⟩, ⟨10, 5, 20⟩, ⟨11, 5, 16⟩, ⟨12, 5, 12⟩, ⟨13, 5, 8⟩, ⟨14, 5, 4⟩, ⟨15, 5, 0⟩])]
  cases := [
    (16, [(8, ⟨15, 7, 0⟩), (9, ⟨15, 6, 0⟩), (10, ⟨15, 5, 0⟩)]),
    (15, [(8, ⟨14, 7, 4⟩), (9, ⟨14, 6, 4⟩), (10, ⟨14, 5, 4⟩)]),
    (14, [(8, ⟨13, 7, 8⟩), (9, ⟨13, 6, 8⟩), (10, ⟨13, 5, 8⟩)]),
    (13, [(8, ⟨12, 7, 12⟩), (9, ⟨12, 6, 12⟩), (10, ⟨12, 5, 12⟩)]),
    (12, [(8, ⟨11, 7, 16⟩), (9, ⟨11, 6, 16⟩), (10, ⟨11, 5, 16⟩)]),
    (11, [(8, ⟨10, 7, 20⟩), (9, ⟨10, 6, 20⟩), (10, ⟨10, 5, 20⟩)]),
    (10, [(8, ⟨9, 7, 24⟩), (9, ⟨9, 6, 24⟩), (10, ⟨9, 5, 24⟩)]),
    (9, [(8, ⟨8, 7, 28⟩), (9, ⟨8, 6, 28⟩), (10, ⟨8, 5, 28⟩)]),
    (8, [(8, ⟨7, 7, 32⟩), (9, ⟨7, 6, 32⟩), (10, ⟨7, 5, 32⟩)]),
    (7, [(8, ⟨6, 7, 36⟩), (9, ⟨6, 6, 36⟩), (10, ⟨6, 5, 36⟩)]),
    (6, [(8, ⟨5, 7, 40⟩), (9, ⟨5, 6, 40⟩), (10, ⟨5, 5, 40⟩)]),
    (5, [(8, ⟨4, 7, 44⟩), (9, ⟨4, 6, 44⟩), (10, ⟨4, 5, 44⟩)]),
    (4, [(8, ⟨3, 7, 48⟩), (9, ⟨3, 6, 48⟩), (10, ⟨3, 5, 48⟩)]),
    (3, [(8, ⟨2, 7, 52⟩), (9, ⟨2, 6, 52⟩), (10, ⟨2, 5, 52⟩)]),
    (2, [(8, ⟨1, 7, 56⟩), (9, ⟨1, 6, 56⟩), (10, ⟨1, 5, 56⟩)]),
    (1, [(8, ⟨0, 7, 60⟩), (9, ⟨0, 6, 60⟩), (10, ⟨0, 5, 60⟩)])]
  finals := [8, 9, 10]

/-- conversion_slice16.c:358-392. -/
def slicePass16_10 : SlicePass where
  bulk := [
    (8, false, [⟨0, 7, 60⟩, ⟨1, 7, 56⟩, ⟨2, 7, 52⟩, ⟨3, 7, 48⟩, ⟨4, 7, 44⟩, ⟨5, 7, 40⟩, ⟨6, 7, 36⟩, ⟨7, 7, 32⟩, ⟨8, 7, 28⟩, ⟨9, 7, 24⟩, ⟨10, 7, 20⟩, ⟨11, 7, 16⟩, ⟨12, 7, 12⟩, ⟨13, 7, 8⟩, ⟨14, 7, 4⟩, ⟨15, 7, 0⟩]),
    (9, false, [⟨0, 6, 60⟩, ⟨1, 6, 56⟩, ⟨2, 6, 52⟩, ⟨3, 6, 48⟩, ⟨4, 6, 44⟩, ⟨5, 6, 40⟩, ⟨6, 6, 36⟩, ⟨7, 6, 32⟩, ⟨8, 6, 28⟩, ⟨9, 6, 24⟩, ⟨10, 6, 20⟩, ⟨11, 6, 16⟩, ⟨12, 6, 12⟩, ⟨13, 6, 8⟩, ⟨14, 6, 4⟩, ⟨15, 6, 0⟩])]
  cases := [
    (16, [(8, ⟨15, 7, 0⟩), (9, ⟨15, 6, 0⟩)]),
    (15, [(8, ⟨14, 7, 4⟩), (9, ⟨14, 6, 4⟩)]),
    (14, [(8, ⟨13, 7, 8⟩), (9, ⟨13, 6, 8⟩)]),
    (13, [(8, ⟨12, 7, 12⟩), (9, ⟨12, 6, 12⟩)]),
    (12, [(8, ⟨11, 7, 16⟩), (9, ⟨11, 6, 16⟩)]),
    (11, [(8, ⟨10, 7, 20⟩), (9, ⟨10, 6, 20⟩)]),
    (10, [(8, ⟨9, 7, 24⟩), (9, ⟨9, 6, 24⟩)]),
    (9, [(8, ⟨8, 7, 28⟩), (9, ⟨8, 6, 28⟩)]),
    (8, [(8, ⟨7, 7, 32⟩), (9, ⟨7, 6, 32⟩)]),
    (7, [(8, ⟨6, 7, 36⟩), (9, ⟨6, 6, 36⟩)]),
    (6, [(8, ⟨5, 7, 40⟩), (9, ⟨5, 6, 40⟩)]),
    (5, [(8, ⟨4, 7, 44⟩), (9, ⟨4, 6, 44⟩)]),
    (4, [(8, ⟨3, 7, 48⟩), (9, ⟨3, 6, 48⟩)]),
    (3, [(8, ⟨2, 7, 52⟩), (9, ⟨2, 6, 52⟩)]),
    (2, [(8, ⟨1, 7, 56⟩), (9, ⟨1, 6, 56⟩)]),
    (1, [(8, ⟨0, 7, 60⟩), (9, ⟨0, 6, 60⟩)])]
  finals := [8, 9]

/-- conversion_slice16.c:395-426. -/
def slicePass16_9 : SlicePass where
  bulk := [
    (8, false, [⟨0, 7, 60⟩, ⟨1, 7, 56⟩, ⟨2, 7, 52⟩, ⟨3, 7, 48⟩, ⟨4, 7, 44⟩, ⟨5, 7, 40⟩, ⟨6, 7, 36⟩, ⟨7, 7, 32⟩, ⟨8, 7, 28⟩, ⟨9, 7, 24⟩, ⟨10, 7, 20⟩, ⟨11, 7, 16⟩, ⟨12, 7, 12⟩, ⟨13, 7, 8⟩, ⟨14, 7, 4⟩, ⟨15, 7, 0⟩])]
  cases := [
    (16, [(8, ⟨15, 7, 0⟩)]),
    (15, [(8, ⟨14, 7, 4⟩)]),
    (14, [(8, ⟨13, 7, 8⟩)]),
    (13, [(8, ⟨12, 7, 12⟩)]),
    (12, [(8, ⟨11, 7, 16⟩)]),
    (11, [(8, ⟨10, 7, 20⟩)]),
    (10, [(8, ⟨9, 7, 24⟩)]),
    (9, [(8, ⟨8, 7, 28⟩)]),
    (8, [(8, ⟨7, 7, 32⟩)]),
    (7, [(8, ⟨6, 7, 36⟩)]),
    (6, [(8, ⟨5, 7, 40⟩)]),
    (5, [(8, ⟨4, 7, 44⟩)]),
    (4, [(8, ⟨3, 7, 48⟩)]),
    (3, [(8, ⟨2, 7, 52⟩)]),
    (2, [(8, ⟨1, 7, 56⟩)]),
    (1, [(8, ⟨0, 7, 60⟩)])]
  finals := [8]

/-- conversion.c:190-210. -/
def clingPass2 : ClingPass where
  bulk := [
    (0, .set, [⟨0, 32, 1⟩, ⟨1, 32, 0⟩]),
    (1, .set, [⟨0, 0, 1⟩, ⟨1, 0, 0⟩])]
  cases := [
    (2, [(0, .set, [⟨0, 32, 1⟩, ⟨1, 32, 0⟩]), (1, .masked, [⟨0, 0, 1⟩, ⟨1, 0, 0⟩])]),
    (1, [(0, .masked, [⟨0, 32, 1⟩, ⟨1, 32, 0⟩])])]
  fall := false

/-- conversion.c:329-370. -/
def clingPass4_4 : ClingPass where
  bulk := [
    (0, .set, [⟨0, 48, 3⟩, ⟨1, 48, 2⟩, ⟨2, 48, 1⟩, ⟨3, 48, 0⟩]),
    (1, .set, [⟨0, 32, 3⟩, ⟨1, 32, 2⟩, ⟨2, 32, 1⟩, ⟨3, 32, 0⟩]),
    (2, .set, [⟨0, 16, 3⟩, ⟨1, 16, 2⟩, ⟨2, 16, 1⟩, ⟨3, 16, 0⟩]),
    (3, .set, [⟨0, 0, 3⟩, ⟨1, 0, 2⟩, ⟨2, 0, 1⟩, ⟨3, 0, 0⟩])]
  cases := [
    (4, [(0, .set, [⟨0, 48, 3⟩, ⟨1, 48, 2⟩, ⟨2, 48, 1⟩, ⟨3, 48, 0⟩]), (1, .set, [⟨0, 32, 3⟩, ⟨1, 32, 2⟩, ⟨2, 32, 1⟩, ⟨3, 32, 0⟩]), (2, .set, [⟨0, 16, 3⟩, ⟨1, 16, 2⟩, ⟨2, 16, 1⟩, ⟨3, 16, 0⟩]), (3, .masked, [⟨0, 0, 3⟩, ⟨1, 0, 2⟩, ⟨2, 0, 1⟩, ⟨3, 0, 0⟩])]),
    (3, [(0, .set, [⟨0, 48, 3⟩, ⟨1, 48, 2⟩, ⟨2, 48, 1⟩, ⟨3, 48, 0⟩]), (1, .set, [⟨0, 32, 3⟩, ⟨1, 32, 2⟩, ⟨2, 32, 1⟩, ⟨3, 32, 0⟩]), (2, .masked, [⟨0, 16, 3⟩, ⟨1, 16, 2⟩, ⟨2, 16, 1⟩, ⟨3, 16, 0⟩])]),
    (2, [(0, .set, [⟨0, 48, 3⟩, ⟨1, 48, 2⟩, ⟨2, 48, 1⟩, ⟨3, 48, 0⟩]), (1, .masked, [⟨0, 32, 3⟩, ⟨1, 32, 2⟩, ⟨2, 32, 1⟩, ⟨3, 32, 0⟩])]),
    (1, [(0, .masked, [⟨0, 48, 3⟩, ⟨1, 48, 2⟩, ⟨2, 48, 1⟩, ⟨3, 48, 0⟩])])]
  fall := false

/-- conversion.c:372-412. -/
def clingPass4_3 : ClingPass where
  bulk := [
    (0, .set, [⟨0, 48, 3⟩, ⟨1, 48, 2⟩, ⟨2, 48, 1⟩]),
    (1, .set, [⟨0, 32, 3⟩, ⟨1, 32, 2⟩, ⟨2, 32, 1⟩]),
    (2, .set, [⟨0, 16, 3⟩, ⟨1, 16, 2⟩, ⟨2, 16, 1⟩]),
    (3, .set, [⟨0, 0, 3⟩, ⟨1, 0, 2⟩, ⟨2, 0, 1⟩])]
  cases := [
    (4, [(0, .set, [⟨0, 48, 3⟩, ⟨1, 48, 2⟩, ⟨2, 48, 1⟩]), (1, .set, [⟨0, 32, 3⟩, ⟨1, 32, 2⟩, ⟨2, 32, 1⟩]), (2, .set, [⟨0, 16, 3⟩, ⟨1, 16, 2⟩, ⟨2, 16, 1⟩]), (3, .masked, [⟨0, 0, 3⟩, ⟨1, 0, 2⟩, ⟨2, 0, 1⟩])]),
    (3, [(0, .set, [⟨0, 48, 3⟩, ⟨1, 48, 2⟩, ⟨2, 48, 1⟩]), (1, .set, [⟨0, 32, 3⟩, ⟨1, 32, 2⟩, ⟨2, 32, 1⟩]), (2, .masked, [⟨0, 16, 3⟩, ⟨1, 16, 2⟩, ⟨2, 16, 1⟩])]),
    (2, [(0, .set, [⟨0, 48, 3⟩, ⟨1, 48, 2⟩, ⟨2, 48, 1⟩]), (1, .masked, [⟨0, 32, 3⟩, ⟨1, 32, 2⟩, ⟨2, 32, 1⟩])]),
    (1, [(0, .masked, [⟨0, 48, 3⟩, ⟨1, 48, 2⟩, ⟨2, 48, 1⟩])])]
  fall := false

/-- conversion_cling8.c:39-100. -/
def clingPass8_8 : ClingPass where
  bulk := [
    (0, .set, [⟨0, 56, 7⟩, ⟨1, 56, 6⟩, ⟨2, 56, 5⟩, ⟨3, 56, 4⟩, ⟨4, 56, 3⟩, ⟨5, 56, 2⟩, ⟨6, 56, 1⟩, ⟨7, 56, 0⟩]),
    (1, .set, [⟨0, 48, 7⟩, ⟨1, 48, 6⟩, ⟨2, 48, 5⟩, ⟨3, 48, 4⟩, ⟨4, 48, 3⟩, ⟨5, 48, 2⟩, ⟨6, 48, 1⟩, ⟨7, 48, 0⟩]),
    (2, .set, [⟨0, 40, 7⟩, ⟨1, 40, 6⟩, ⟨2, 40, 5⟩, ⟨3, 40, 4⟩, ⟨4, 40, 3⟩, ⟨5, 40, 2⟩, ⟨6, 40, 1⟩, ⟨7, 40, 0⟩]),
    (3, .set, [⟨0, 32, 7⟩, ⟨1, 32, 6⟩, ⟨2, 32, 5⟩, ⟨3, 32, 4⟩, ⟨4, 32, 3⟩, ⟨5, 32, 2⟩, ⟨6, 32, 1⟩, ⟨7, 32, 0⟩]),
    (4, .set, [⟨0, 24, 7⟩, ⟨1, 24, 6⟩, ⟨2, 24, 5⟩, ⟨3, 24, 4⟩, ⟨4, 24, 3⟩, ⟨5, 24, 2⟩, ⟨6, 24, 1⟩, ⟨7, 24, 0⟩]),
    (5, .set, [⟨0, 16, 7⟩, ⟨1, 16, 6⟩, ⟨2, 16, 5⟩, ⟨3, 16, 4⟩, ⟨4, 16, 3⟩, ⟨5, 16, 2⟩, ⟨6, 16, 1⟩, ⟨7, 16, 0⟩]),
    (6, .set, [⟨0, 8, 7⟩, ⟨1, 8, 6⟩, ⟨2, 8, 5⟩, ⟨3, 8, 4⟩, ⟨4, 8, 3⟩, ⟨5, 8, 2⟩, ⟨6, 8, 1⟩, ⟨7, 8, 0⟩]),
    (7, .set, [⟨0, 0, 7⟩, ⟨1, 0, 6⟩, ⟨2, 0, 5⟩, ⟨3, 0, 4⟩, ⟨4, 0, 3⟩, ⟨5, 0, 2⟩, ⟨6, 0, 1⟩, ⟨7, 0, 0⟩])]
  cases := [
    (8, [(7, .set, [⟨0, 0, 7⟩, ⟨1, 0, 6⟩, ⟨2, 0, 5⟩, ⟨3, 0, 4⟩, ⟨4, 0, 3⟩, ⟨5, 0, 2⟩, ⟨6, 0, 1⟩, ⟨7, 0, 0⟩])]),
    (7, [(6, .set, [⟨0, 8, 7⟩, ⟨1, 8, 6⟩, ⟨2, 8, 5⟩, ⟨3, 8, 4⟩, ⟨4, 8, 3⟩, ⟨5, 8, 2⟩, ⟨6, 8, 1⟩, ⟨7, 8, 0⟩])]),
    (6, [(5, .set, [⟨0, 16, 7⟩, ⟨1, 16, 6⟩, ⟨2, 16, 5⟩, ⟨3, 16, 4⟩, ⟨4, 16, 3⟩, ⟨5, 16, 2⟩, ⟨6, 16, 1⟩, ⟨7, 16, 0⟩])]),
    (5, [(4, .set, [⟨0, 24, 7⟩, ⟨1, 24, 6⟩, ⟨2, 24, 5⟩, ⟨3, 24, 4⟩, ⟨4, 24, 3⟩, ⟨5, 24, 2⟩, ⟨6, 24, 1⟩, ⟨7, 24, 0⟩])]),
    (4, [(3, .set, [⟨0, 32, 7⟩, ⟨1, 32, 6⟩, ⟨2, 32, 5⟩, ⟨3, 32, 4⟩, ⟨4, 32, 3⟩, ⟨5, 32, 2⟩, ⟨6, 32, 1⟩, ⟨7, 32, 0⟩])]),
    (3, [(2, .set, [⟨0, 40, 7⟩, ⟨1, 40, 6⟩, ⟨2, 40, 5⟩, ⟨3, 40, 4⟩, ⟨4, 40, 3⟩, ⟨5, 40, 2⟩, ⟨6, 40, 1⟩, ⟨7, 40, 0⟩])]),
    (2, [(1, .set, [⟨0, 48, 7⟩, ⟨1, 48, 6⟩, ⟨2, 48, 5⟩, ⟨3, 48, 4⟩, ⟨4, 48, 3⟩, ⟨5, 48, 2⟩, ⟨6, 48, 1⟩, ⟨7, 48, 0⟩])]),
    (1, [(0, .set, [⟨0, 56, 7⟩, ⟨1, 56, 6⟩, ⟨2, 56, 5⟩, ⟨3, 56, 4⟩, ⟨4, 56, 3⟩, ⟨5, 56, 2⟩, ⟨6, 56, 1⟩, ⟨7, 56, 0⟩])])]
  fall := true

/-- conversion_cling8.c:105-165. -/
def clingPass8_7 : ClingPass where
  bulk := [
    (0, .set, [⟨0, 56, 7⟩, ⟨1, 56, 6⟩, ⟨2, 56, 5⟩, ⟨3, 56, 4⟩, ⟨4, 56, 3⟩, ⟨5, 56, 2⟩, ⟨6, 56, 1⟩]),
    (1, .set, [⟨0, 48, 7⟩, ⟨1, 48, 6⟩, ⟨2, 48, 5⟩, ⟨3, 48, 4⟩, ⟨4, 48, 3⟩, ⟨5, 48, 2⟩, ⟨6, 48, 1⟩]),
    (2, .set, [⟨0, 40, 7⟩, ⟨1, 40, 6⟩, ⟨2, 40, 5⟩, ⟨3, 40, 4⟩, ⟨4, 40, 3⟩, ⟨5, 40, 2⟩, ⟨6, 40, 1⟩]),
    (3, .set, [⟨0, 32, 7⟩, ⟨1, 32, 6⟩, ⟨2, 32, 5⟩, ⟨3, 32, 4⟩, ⟨4, 32, 3⟩, ⟨5, 32, 2⟩, ⟨6, 32, 1⟩]),
    (4, .set, [⟨0, 24, 7⟩, ⟨1, 24, 6⟩, ⟨2, 24, 5⟩, ⟨3, 24, 4⟩, ⟨4, 24, 3⟩, ⟨5, 24, 2⟩, ⟨6, 24, 1⟩]),
    (5, .set, [⟨0, 16, 7⟩, ⟨1, 16, 6⟩, ⟨2, 16, 5⟩, ⟨3, 16, 4⟩, ⟨4, 16, 3⟩, ⟨5, 16, 2⟩, ⟨6, 16, 1⟩]),
    (6, .set, [⟨0, 8, 7⟩, ⟨1, 8, 6⟩, ⟨2, 8, 5⟩, ⟨3, 8, 4⟩, ⟨4, 8, 3⟩, ⟨5, 8, 2⟩, ⟨6, 8, 1⟩]),
    (7, .set, [⟨0, 0, 7⟩, ⟨1, 0, 6⟩, ⟨2, 0, 5⟩, ⟨3, 0, 4⟩, ⟨4, 0, 3⟩, ⟨5, 0, 2⟩, ⟨6, 0, 1⟩])]
  cases := [
    (8, [(7, .set, [⟨0, 0, 7⟩, ⟨1, 0, 6⟩, ⟨2, 0, 5⟩, ⟨3, 0, 4⟩, ⟨4, 0, 3⟩, ⟨5, 0, 2⟩, ⟨6, 0, 1⟩])]),
    (7, [(6, .set, [⟨0, 8, 7⟩, ⟨1, 8, 6⟩, ⟨2, 8, 5⟩, ⟨3, 8, 4⟩, ⟨4, 8, 3⟩, ⟨5, 8, 2⟩, ⟨6, 8, 1⟩])]),
    (6, [(5, .set, [⟨0, 16, 7⟩, ⟨1, 16, 6⟩, ⟨2, 16, 5⟩, ⟨3, 16, 4⟩, ⟨4, 16, 3⟩, ⟨5, 16, 2⟩, ⟨6, 16, 1⟩])]),
    (5, [(4, .set, [⟨0, 24, 7⟩, ⟨1, 24, 6⟩, ⟨2, 24, 5⟩, ⟨3, 24, 4⟩, ⟨4, 24, 3⟩, ⟨5, 24, 2⟩, ⟨6, 24, 1⟩])]),
    (4, [(3, .set, [⟨0, 32, 7⟩, ⟨1, 32, 6⟩, ⟨2, 32, 5⟩, ⟨3, 32, 4⟩, ⟨4, 32, 3⟩, ⟨5, 32, 2⟩, ⟨6, 32, 1⟩])]),
    (3, [(2, .set, [⟨0, 40, 7⟩, ⟨1, 40, 6⟩, ⟨2, 40, 5⟩, ⟨3, 40, 4⟩, ⟨4, 40, 3⟩, ⟨5, 40, 2⟩, ⟨6, 40, 1⟩])]),
    (2, [(1, .set, [⟨0, 48, 7⟩, ⟨1, 48, 6⟩, ⟨2, 48, 5⟩, ⟨3, 48, 4⟩, ⟨4, 48, 3⟩, ⟨5, 48, 2⟩, ⟨6, 48, 1⟩])]),
    (1, [(0, .set, [⟨0, 56, 7⟩, ⟨1, 56, 6⟩, ⟨2, 56, 5⟩, ⟨3, 56, 4⟩, ⟨4, 56, 3⟩, ⟨5, 56, 2⟩, ⟨6, 56, 1⟩])])]
  fall := true

/-- conversion_cling8.c:170-229. -/
def clingPass8_6 : ClingPass where
  bulk := [
    (0, .set, [⟨0, 56, 7⟩, ⟨1, 56, 6⟩, ⟨2, 56, 5⟩, ⟨3, 56, 4⟩, ⟨4, 56, 3⟩, ⟨5, 56, 2⟩]),
    (1, .set, [⟨0, 48, 7⟩, ⟨1, 48, 6⟩, ⟨2, 48, 5⟩, ⟨3, 48, 4⟩, ⟨4, 48, 3⟩, ⟨5, 48, 2⟩]),
    (2, .set, [⟨0, 40, 7⟩, ⟨1, 40, 6⟩, ⟨2, 40, 5⟩, ⟨3, 40, 4⟩, ⟨4, 40, 3⟩, ⟨5, 40, 2⟩]),
    (3, .set, [⟨0, 32, 7⟩, ⟨1, 32, 6⟩, ⟨2, 32, 5⟩, ⟨3, 32, 4⟩, ⟨4, 32, 3⟩, ⟨5, 32, 2⟩]),
    (4, .set, [⟨0, 24, 7⟩, ⟨1, 24, 6⟩, ⟨2, 24, 5⟩, ⟨3, 24, 4⟩, ⟨4, 24, 3⟩, ⟨5, 24, 2⟩]),
    (5, .set, [⟨0, 16, 7⟩, ⟨1, 16, 6⟩, ⟨2, 16, 5⟩, ⟨3, 16, 4⟩, ⟨4, 16, 3⟩, ⟨5, 16, 2⟩]),
    (6, .set, [⟨0, 8, 7⟩, ⟨1, 8, 6⟩, ⟨2, 8, 5⟩, ⟨3, 8, 4⟩, ⟨4, 8, 3⟩, ⟨5, 8, 2⟩]),
    (7, .set, [⟨0, 0, 7⟩, ⟨1, 0, 6⟩, ⟨2, 0, 5⟩, ⟨3, 0, 4⟩, ⟨4, 0, 3⟩, ⟨5, 0, 2⟩])]
  cases := [
    (8, [(7, .set, [⟨0, 0, 7⟩, ⟨1, 0, 6⟩, ⟨2, 0, 5⟩, ⟨3, 0, 4⟩, ⟨4, 0, 3⟩, ⟨5, 0, 2⟩])]),
    (7, [(6, .set, [⟨0, 8, 7⟩, ⟨1, 8, 6⟩, ⟨2, 8, 5⟩, ⟨3, 8, 4⟩, ⟨4, 8, 3⟩, ⟨5, 8, 2⟩])]),
    (6, [(5, .set, [⟨0, 16, 7⟩, ⟨1, 16, 6⟩, ⟨2, 16, 5⟩, ⟨3, 16, 4⟩, ⟨4, 16, 3⟩, ⟨5, 16, 2⟩])]),
    (5, [(4, .set, [⟨0, 24, 7⟩, ⟨1, 24, 6⟩, ⟨2, 24, 5⟩, ⟨3, 24, 4⟩, ⟨4, 24, 3⟩, ⟨5, 24, 2⟩])]),
    (4, [(3, .set, [⟨0, 32, 7⟩, ⟨1, 32, 6⟩, ⟨2, 32, 5⟩, ⟨3, 32, 4⟩, ⟨4, 32, 3⟩, ⟨5, 32, 2⟩])]),
    (3, [(2, .set, [⟨0, 40, 7⟩, ⟨1, 40, 6⟩, ⟨2, 40, 5⟩, ⟨3, 40, 4⟩, ⟨4, 40, 3⟩, ⟨5, 40, 2⟩])]),
    (2, [(1, .set, [⟨0, 48, 7⟩, ⟨1, 48, 6⟩, ⟨2, 48, 5⟩, ⟨3, 48, 4⟩, ⟨4, 48, 3⟩, ⟨5, 48, 2⟩])]),
    (1, [(0, .set, [⟨0, 56, 7⟩, ⟨1, 56, 6⟩, ⟨2, 56, 5⟩, ⟨3, 56, 4⟩, ⟨4, 56, 3⟩, ⟨5, 56, 2⟩])])]
  fall := true

/-- conversion_cling8.c:234-268. -/
def clingPass8_5 : ClingPass where
  bulk := [
    (0, .set, [⟨0, 56, 7⟩, ⟨1, 56, 6⟩, ⟨2, 56, 5⟩, ⟨3, 56, 4⟩, ⟨4, 56, 3⟩]),
    (1, .set, [⟨0, 48, 7⟩, ⟨1, 48, 6⟩, ⟨2, 48, 5⟩, ⟨3, 48, 4⟩, ⟨4, 48, 3⟩]),
    (2, .set, [⟨0, 40, 7⟩, ⟨1, 40, 6⟩, ⟨2, 40, 5⟩, ⟨3, 40, 4⟩, ⟨4, 40, 3⟩]),
    (3, .set, [⟨0, 32, 7⟩, ⟨1, 32, 6⟩, ⟨2, 32, 5⟩, ⟨3, 32, 4⟩, ⟨4, 32, 3⟩]),
    (4, .set, [⟨0, 24, 7⟩, ⟨1, 24, 6⟩, ⟨2, 24, 5⟩, ⟨3, 24, 4⟩, ⟨4, 24, 3⟩]),
    (5, .set, [⟨0, 16, 7⟩, ⟨1, 16, 6⟩, ⟨2, 16, 5⟩, ⟨3, 16, 4⟩, ⟨4, 16, 3⟩]),
    (6, .set, [⟨0, 8, 7⟩, ⟨1, 8, 6⟩, ⟨2, 8, 5⟩, ⟨3, 8, 4⟩, ⟨4, 8, 3⟩]),
    (7, .set, [⟨0, 0, 7⟩, ⟨1, 0, 6⟩, ⟨2, 0, 5⟩, ⟨3, 0, 4⟩, ⟨4, 0, 3⟩])]
  cases := [
    (8, [(7, .set, [⟨0, 0, 7⟩, ⟨1, 0, 6⟩, ⟨2, 0, 5⟩, ⟨3, 0, 4⟩, ⟨4, 0, 3⟩])]),
    (7, [(6, .set, [⟨0, 8, 7⟩, ⟨1, 8, 6⟩, ⟨2, 8, 5⟩, ⟨3, 8, 4⟩, ⟨4, 8, 3⟩])]),
    (6, [(5, .set, [⟨0, 16, 7⟩, ⟨1, 16, 6⟩, ⟨2, 16, 5⟩, ⟨3, 16, 4⟩, ⟨4, 16, 3⟩])]),
    (5, [(4, .set, [⟨0, 24, 7⟩, ⟨1, 24, 6⟩, ⟨2, 24, 5⟩, ⟨3, 24, 4⟩, ⟨4, 24, 3⟩])]),
    (4, [(3, .set, [⟨0, 32, 7⟩, ⟨1, 32, 6⟩, ⟨2, 32, 5⟩, ⟨3, 32, 4⟩, ⟨4, 32, 3⟩])]),
    (3, [(2, .set, [⟨0, 40, 7⟩, ⟨1, 40, 6⟩, ⟨2, 40, 5⟩, ⟨3, 40, 4⟩, ⟨4, 40, 3⟩])]),
    (2, [(1, .set, [⟨0, 48, 7⟩, ⟨1, 48, 6⟩, ⟨2, 48, 5⟩, ⟨3, 48, 4⟩, ⟨4, 48, 3⟩])]),
    (1, [(0, .set, [⟨0, 56, 7⟩, ⟨1, 56, 6⟩, ⟨2, 56, 5⟩, ⟨3, 56, 4⟩, ⟨4, 56, 3⟩])])]
  fall := true

/-- conversion_cling16.c:36-121. -/
def clingPass16_lo : ClingPass where
  bulk := [
    (0, .set, [⟨0, 60, 15⟩, ⟨1, 60, 14⟩, ⟨2, 60, 13⟩, ⟨3, 60, 12⟩, ⟨4, 60, 11⟩, ⟨5, 60, 10⟩, ⟨6, 60, 9⟩, ⟨7, 60, 8⟩]),
    (1, .set, [⟨0, 56, 15⟩, ⟨1, 56, 14⟩, ⟨2, 56, 13⟩, ⟨3, 56, 12⟩, ⟨4, 56, 11⟩, ⟨5, 56, 10⟩, ⟨6, 56, 9⟩, ⟨7, 56, 8⟩]),
    (2, .set, [⟨0, 52, 15⟩, ⟨1, 52, 14⟩, ⟨2, 52, 13⟩, ⟨3, 52, 12⟩, ⟨4, 52, 11⟩, ⟨5, 52, 10⟩, ⟨6, 52, 9⟩, ⟨7, 52, 8⟩]),
    (3, .set, [⟨0, 48, 15⟩, ⟨1, 48, 14⟩, ⟨2, 48, 13⟩, ⟨3, 48, 12⟩, ⟨4, 48, 11⟩, ⟨5, 48, 10⟩, ⟨6, 48, 9⟩, ⟨7, 48, 8⟩]),
    (4, .set, [⟨0, 44, 15⟩, ⟨1, 44, 14⟩, ⟨2, 44, 13⟩, ⟨3, 44, 12⟩, ⟨4, 44, 11⟩, ⟨5, 44, 10⟩, ⟨6, 44, 9⟩, ⟨7, 44, 8⟩]),
    (5, .set, [⟨0, 40, 15⟩, ⟨1, 40, 14⟩, ⟨2, 40, 13⟩, ⟨3, 40, 12⟩, ⟨4, 40, 11⟩, ⟨5, 40, 10⟩, ⟨6, 40, 9⟩, ⟨7, 40, 8⟩]),
    (6, .set, [⟨0, 36, 15⟩, ⟨1, 36, 14⟩, ⟨2, 36, 13⟩, ⟨3, 36, 12⟩, ⟨4, 36, 11⟩, ⟨5, 36, 10⟩, ⟨6, 36, 9⟩, ⟨7, 36, 8⟩]),
    (7, .set, [⟨0, 32, 15⟩, ⟨1, 32, 14⟩, ⟨2, 32, 13⟩, ⟨3, 32, 12⟩, ⟨4, 32, 11⟩, ⟨5, 32, 10⟩, ⟨6, 32, 9⟩, ⟨7, 32, 8⟩]),
    (8, .set, [⟨0, 28, 15⟩, ⟨1, 28, 14⟩, ⟨2, 28, 13⟩, ⟨3, 28, 12⟩, ⟨4, 28, 11⟩, ⟨5, 28, 10⟩, ⟨6, 28, 9⟩, ⟨7, 28, 8⟩]),
    (9, .set, [⟨0, 24, 15⟩, ⟨1, 24, 14⟩, ⟨2, 24, 13⟩, ⟨3, 24, 12⟩, ⟨4, 24, 11⟩, ⟨5, 24, 10⟩, ⟨6, 24, 9⟩, ⟨7, 24, 8⟩]),
    (10, .set, [⟨0, 20, 15⟩, ⟨1, 20, 14⟩, ⟨2, 20, 13⟩, ⟨3, 20, 12⟩, ⟨4, 20, 11⟩, ⟨5, 20, 10⟩, ⟨6, 20, 9⟩, ⟨7, 20, 8⟩]),
    (11, .set, [⟨0, 16, 15⟩, ⟨1, 16, 14⟩, ⟨2, 16, 13⟩, ⟨3, 16, 12⟩, ⟨4, 16, 11⟩, ⟨5, 16, 10⟩, ⟨6, 16, 9⟩, ⟨7, 16, 8⟩]),
    (12, .set, [⟨0, 12, 15⟩, ⟨1, 12, 14⟩, ⟨2, 12, 13⟩, ⟨3, 12, 12⟩, ⟨4, 12, 11⟩, ⟨5, 12, 10⟩, ⟨6, 12, 9⟩, ⟨7, 12, 8⟩]),
    (13, .set, [⟨0, 8, 15⟩, ⟨1, 8, 14⟩, ⟨2, 8, 13⟩, ⟨3, 8, 12⟩, ⟨4, 8, 11⟩, ⟨5, 8, 10⟩, ⟨6, 8, 9⟩, ⟨7, 8, 8⟩]),
    (14, .set, [⟨0, 4, 15⟩, ⟨1, 4, 14⟩, ⟨2, 4, 13⟩, ⟨3, 4, 12⟩, ⟨4, 4, 11⟩, ⟨5, 4, 10⟩, ⟨6, 4, 9⟩, ⟨7, 4, 8⟩]),
    (15, .set, [⟨0, 0, 15⟩, ⟨1, 0, 14⟩, ⟨2, 0, 13⟩, ⟨3, 0, 12⟩, ⟨4, 0, 11⟩, ⟨5, 0, 10⟩, ⟨6, 0, 9⟩, ⟨7, 0, 8⟩])]
  cases := [
    (16, [(15, .set, [⟨0, 0, 15⟩, ⟨1, 0, 14⟩, ⟨2, 0, 13⟩, ⟨3, 0, 12⟩, ⟨4, 0, 11⟩, ⟨5, 0, 10⟩, ⟨6, 0, 9⟩, ⟨7, 0, 8⟩])]),
    (15, [(14, .set, [⟨0, 4, 15⟩, ⟨1, 4, 14⟩, ⟨2, 4, 13⟩, ⟨3, 4, 12⟩, ⟨4, 4, 11⟩, ⟨5, 4, 10⟩, ⟨6, 4, 9⟩, ⟨7, 4, 8⟩])]),
    (14, [(13, .set, [⟨0, 8, 15⟩, ⟨1, 8, 14⟩, ⟨2, 8, 13⟩, ⟨3, 8, 12⟩, ⟨4, 8, 11⟩, ⟨5, 8, 10⟩, ⟨6, 8, 9⟩, ⟨7, 8, 8⟩])]),
    (13, [(12, .set, [⟨0, 12, 15⟩, ⟨1, 12, 14⟩, ⟨2, 12, 13⟩, ⟨3, 12, 12⟩, ⟨4, 12, 11⟩, ⟨5, 12, 10⟩, ⟨6, 12, 9⟩, ⟨7, 12, 8⟩])]),
    (12, [(11, .set, [⟨0, 16, 15⟩, ⟨1, 16, 14⟩, ⟨2, 16, 13⟩, ⟨3, 16, 12⟩, ⟨4, 16, 11⟩, ⟨5, 16, 10⟩, ⟨6, 16, 9⟩, ⟨7, 16, 8⟩])]),
    (11, [(10, .set, [⟨0, 20, 15⟩, ⟨1, 20, 14⟩, ⟨2, 20, 13⟩, ⟨3, 20, 12⟩, ⟨4, 20, 11⟩, ⟨5, 20, 10⟩, ⟨6, 20, 9⟩, ⟨7, 20, 8⟩])]),
    (10, [(9, .set, [⟨0, 24, 15⟩, ⟨1, 24, 14⟩, ⟨2, 24, 13⟩, ⟨3, 24, 12⟩, ⟨4, 24, 11⟩, ⟨5, 24, 10⟩, ⟨6, 24, 9⟩, ⟨7, 24, 8⟩])]),
    (9, [(8, .set, [⟨0, 28, 15⟩, ⟨1, 28, 14⟩, ⟨2, 28, 13⟩, ⟨3, 28, 12⟩, ⟨4, 28, 11⟩, ⟨5, 28, 10⟩, ⟨6, 28, 9⟩, ⟨7, 28, 8⟩])]),
    (8, [(7, .set, [⟨0, 32, 15⟩, ⟨1, 32, 14⟩, ⟨2, 32, 13⟩, ⟨3, 32, 12⟩, ⟨4, 32, 11⟩, ⟨5, 32, 10⟩, ⟨6, 32, 9⟩, ⟨7, 32, 8⟩])]),
    (7, [(6, .set, [⟨0, 36, 15⟩, ⟨1, 36, 14⟩, ⟨2, 36, 13⟩, ⟨3, 36, 12⟩, ⟨4, 36, 11⟩, ⟨5, 36, 10⟩, ⟨6, 36, 9⟩, ⟨7, 36, 8⟩])]),
    (6, [(5, .set, [⟨0, 40, 15⟩, ⟨1, 40, 14⟩, ⟨2, 40, 13⟩, ⟨3, 40, 12⟩, ⟨4, 40, 11⟩, ⟨5, 40, 10⟩, ⟨6, 40, 9⟩, ⟨7, 40, 8⟩])]),
    (5, [(4, .set, [⟨0, 44, 15⟩, ⟨1, 44, 14⟩, ⟨2, 44, 13⟩, ⟨3, 44, 12⟩, ⟨4, 44, 11⟩, ⟨5, 44, 10⟩, ⟨6, 44, 9⟩, ⟨7, 44, 8⟩])]),
    (4, [(3, .set, [⟨0, 48, 15⟩, ⟨1, 48, 14⟩, ⟨2, 48, 13⟩, ⟨3, 48, 12⟩, ⟨4, 48, 11⟩, ⟨5, 48, 10⟩, ⟨6, 48, 9⟩, ⟨7, 48, 8⟩])]),
    (3, [(2, .set, [⟨0, 52, 15⟩, ⟨1, 52, 14⟩, ⟨2, 52, 13⟩, ⟨3, 52, 12⟩, ⟨4, 52, 11⟩, ⟨5, 52, 10⟩, ⟨6, 52, 9⟩, ⟨7, 52, 8⟩])]),
    (2, [(1, .set, [⟨0, 56, 15⟩, ⟨1, 56, 14⟩, ⟨2, 56, 13⟩, ⟨3, 56, 12⟩, ⟨4, 56, 11⟩, ⟨5, 56, 10⟩, ⟨6, 56, 9⟩, ⟨7, 56, 8⟩])]),
    (1, [(0, .set, [⟨0, 60, 15⟩, ⟨1, 60, 14⟩, ⟨2, 60, 13⟩, ⟨3, 60, 12⟩, ⟨4, 60, 11⟩, ⟨5, 60, 10⟩, ⟨6, 60, 9⟩, ⟨7, 60, 8⟩])])]
  fall := true

/-- conversion_cling16.c:126-172. -/
def clingPass16_9 : ClingPass where
  bulk := [
    (0, .or, [⟨8, 60, 7⟩]),
    (1, .or, [⟨8, 56, 7⟩]),
    (2, .or, [⟨8, 52, 7⟩]),
    (3, .or, [⟨8, 48, 7⟩]),
    (4, .or, [⟨8, 44, 7⟩]),
    (5, .or, [⟨8, 40, 7⟩]),
    (6, .or, [⟨8, 36, 7⟩]),
    (7, .or, [⟨8, 32, 7⟩]),
    (8, .or, [⟨8, 28, 7⟩]),
    (9, .or, [⟨8, 24, 7⟩]),
    (10, .or, [⟨8, 20, 7⟩]),
    (11, .or, [⟨8, 16, 7⟩]),
    (12, .or, [⟨8, 12, 7⟩]),
    (13, .or, [⟨8, 8, 7⟩]),
    (14, .or, [⟨8, 4, 7⟩]),
    (15, .or, [⟨8, 0, 7⟩])]
  cases := [
    (16, [(15, .or, [⟨8, 0, 7⟩])]),
    (15, [(14, .or, [⟨8, 4, 7⟩])]),
    (14, [(13, .or, [⟨8, 8, 7⟩])]),
    (13, [(12, .or, [⟨8, 12, 7⟩])]),
    (12, [(11, .or, [⟨8, 16, 7⟩])]),
    (11, [(10, .or, [⟨8, 20, 7⟩])]),
    (10, [(9, .or, [⟨8, 24, 7⟩])]),
    (9, [(8, .or, [⟨8, 28, 7⟩])]),
    (8, [(7, .or, [⟨8, 32, 7⟩])]),
    (7, [(6, .or, [⟨8, 36, 7⟩])]),
    (6, [(5, .or, [⟨8, 40, 7⟩])]),
    (5, [(4, .or, [⟨8, 44, 7⟩])]),
    (4, [(3, .or, [⟨8, 48, 7⟩])]),
    (3, [(2, .or, [⟨8, 52, 7⟩])]),
    (2, [(1, .or, [⟨8, 56, 7⟩])]),
    (1, [(0, .or, [⟨8, 60, 7⟩])])]
  fall := true

/-- conversion_cling16.c:176-223. -/
def clingPass16_10 : ClingPass where
  bulk := [
    (0, .or, [⟨8, 60, 7⟩, ⟨9, 60, 6⟩]),
    (1, .or, [⟨8, 56, 7⟩, ⟨9, 56, 6⟩]),
    (2, .or, [⟨8, 52, 7⟩, ⟨9, 52, 6⟩]),
    (3, .or, [⟨8, 48, 7⟩, ⟨9, 48, 6⟩]),
    (4, .or, [⟨8, 44, 7⟩, ⟨9, 44, 6⟩]),
    (5, .or, [⟨8, 40, 7⟩, ⟨9, 40, 6⟩]),
    (6, .or, [⟨8, 36, 7⟩, ⟨9, 36, 6⟩]),
    (7, .or, [⟨8, 32, 7⟩, ⟨9, 32, 6⟩]),
    (8, .or, [⟨8, 28, 7⟩, ⟨9, 28, 6⟩]),
    (9, .or, [⟨8, 24, 7⟩, ⟨9, 24, 6⟩]),
    (10, .or, [⟨8, 20, 7⟩, ⟨9, 20, 6⟩]),
    (11, .or, [⟨8, 16, 7⟩, ⟨9, 16, 6⟩]),
    (12, .or, [⟨8, 12, 7⟩, ⟨9, 12, 6⟩]),
    (13, .or, [⟨8, 8, 7⟩, ⟨9, 8, 6⟩]),
    (14, .or, [⟨8, 4, 7⟩, ⟨9, 4, 6⟩]),
    (15, .or, [⟨8, 0, 7⟩, ⟨9, 0, 6⟩])]
  cases := [
    (16, [(15, .or, [⟨8, 0, 7⟩, ⟨9, 0, 6⟩])]),
    (15, [(14, .or, [⟨8, 4, 7⟩, ⟨9, 4, 6⟩])]),
    (14, [(13, .or, [⟨8, 8, 7⟩, ⟨9, 8, 6⟩])]),
    (13, [(12, .or, [⟨8, 12, 7⟩, ⟨9, 12, 6⟩])]),
    (12, [(11, .or, [⟨8, 16, 7⟩, ⟨9, 16, 6⟩])]),
    (11, [(10, .or, [⟨8, 20, 7⟩, ⟨9, 20, 6⟩])]),
    (10, [(9, .or, [⟨8, 24, 7⟩, ⟨9, 24, 6⟩])]),
    (9, [(8, .or, [⟨8, 28, 7⟩, ⟨9, 28, 6⟩])]),
    (8, [(7, .or, [⟨8, 32, 7⟩, ⟨9, 32, 6⟩])]),
    (7, [(6, .or, [⟨8, 36, 7⟩, ⟨9, 36, 6⟩])]),
    (6, [(5, .or, [⟨8, 40, 7⟩, ⟨9, 40, 6⟩])]),
    (5, [(4, .or, [⟨8, 44, 7⟩, ⟨9, 44, 6⟩])]),
    (4, [(3, .or, [⟨8, 48, 7⟩, ⟨9, 48, 6⟩])]),
    (3, [(2, .or, [⟨8, 52, 7⟩, ⟨9, 52, 6⟩])]),
    (2, [(1, .or, [⟨8, 56, 7⟩, ⟨9, 56, 6⟩])]),
    (1, [(0, .or, [⟨8, 60, 7⟩, ⟨9, 60, 6⟩])])]
  fall := true

/-- conversion_cling16.c:227-275. -/
def clingPass16_11 : ClingPass where
  bulk := [
    (0, .or, [⟨8, 60, 7⟩, ⟨9, 60, 6⟩, ⟨10, 60, 5⟩]),
    (1, .or, [⟨8, 56, 7⟩, ⟨9, 56, 6⟩, ⟨10, 56, 5⟩]),
    (2, .or, [⟨8, 52, 7⟩, ⟨9, 52, 6⟩, ⟨10, 52, 5⟩]),
    (3, .or, [⟨8, 48, 7⟩, ⟨9, 48, 6⟩, ⟨10, 48, 5⟩]),
    (4, .or, [⟨8, 44, 7⟩, ⟨9, 44, 6⟩, ⟨10, 44, 5⟩]),
    (5, .or, [⟨8, 40, 7⟩, ⟨9, 40, 6⟩, ⟨10, 40, 5⟩]),
    (6, .or, [⟨8, 36, 7⟩, ⟨9, 36, 6⟩, ⟨10, 36, 5⟩]),
    (7, .or, [⟨8, 32, 7⟩, ⟨9, 32, 6⟩, ⟨10, 32, 5⟩]),
    (8, .or, [⟨8, 28, 7⟩, ⟨9, 28, 6⟩, ⟨10, 28, 5⟩]),
    (9, .or, [⟨8, 24, 7⟩, ⟨9, 24, 6⟩, ⟨10, 24, 5⟩]),
    (10, .or, [⟨8, 20, 7⟩, ⟨9, 20, 6⟩, ⟨10, 20, 5⟩]),
    (11, .or, [⟨8, 16, 7⟩, ⟨9, 16, 6⟩, ⟨10, 16, 5⟩]),
    (12, .or, [⟨8, 12, 7⟩, ⟨9, 12, 6⟩, ⟨10, 12, 5⟩]),
    (13, .or, [⟨8, 8, 7⟩, ⟨9, 8, 6⟩, ⟨10, 8, 5⟩]),
    (14, .or, [⟨8, 4, 7⟩, ⟨9, 4, 6⟩, ⟨10, 4, 5⟩]),
    (15, .or, [⟨8, 0, 7⟩, ⟨9, 0, 6⟩, ⟨10, 0, 5⟩])]
  cases := [
    (16, [(15, .or, [⟨8, 0, 7⟩, ⟨9, 0, 6⟩, ⟨10, 0, 5⟩])]),
    (15, [(14, .or, [⟨8, 4, 7⟩, ⟨9, 4, 6⟩, ⟨10, 4, 5⟩])]),
    (14, [(13, .or, [⟨8, 8, 7⟩, ⟨9, 8, 6⟩, ⟨10, 8, 5⟩])]),
    (13, [(12, .or, [⟨8, 12, 7⟩, ⟨9, 12, 6⟩, ⟨10, 12, 5⟩])]),
    (12, [(11, .or, [⟨8, 16, 7⟩, ⟨9, 16, 6⟩, ⟨10, 16, 5⟩])]),
    (11, [(10, .or, [⟨8, 20, 7⟩, ⟨9, 20, 6⟩, ⟨10, 20, 5⟩])]),
    (10, [(9, .or, [⟨8, 24, 7⟩, ⟨9, 24, 6⟩, ⟨10, 24, 5⟩])]),
    (9, [(8, .or, [⟨8, 28, 7⟩, ⟨9, 28, 6⟩, ⟨10, 28, 5⟩])]),
    (8, [(7, .or, [⟨8, 32, 7⟩, ⟨9, 32, 6⟩, ⟨10, 32, 5⟩])]),
    (7, [(6, .or, [⟨8, 36, 7⟩, ⟨9, 36, 6⟩, ⟨10, 36, 5⟩])]),
    (6, [(5, .or, [⟨8, 40, 7⟩, ⟨9, 40, 6⟩, ⟨10, 40, 5⟩])]),
    (5, [(4, .or, [⟨8, 44, 7⟩, ⟨9, 44, 6⟩, ⟨10, 44, 5⟩])]),
    (4, [(3, .or, [⟨8, 48, 7⟩, ⟨9, 48, 6⟩, ⟨10, 48, 5⟩])]),
    (3, [(2, .or, [⟨8, 52, 7⟩, ⟨9, 52, 6⟩, ⟨10, 52, 5⟩])]),
    (2, [(1, .or, [⟨8, 56, 7⟩, ⟨9, 56, 6⟩, ⟨10, 56, 5⟩])]),
    (1, [(0, .or, [⟨8, 60, 7⟩, ⟨9, 60, 6⟩, ⟨10, 60, 5⟩])])]
  fall := true

/-- conversion_cling16.c:280-538 (up to the nested switch). -/
def clingPass16_mid : ClingPass where
  bulk := [
    (0, .or, [⟨8, 60, 7⟩, ⟨9, 60, 6⟩, ⟨10, 60, 5⟩, ⟨11, 60, 4⟩]),
    (1, .or, [⟨8, 56, 7⟩, ⟨9, 56, 6⟩, ⟨10, 56, 5⟩, ⟨11, 56, 4⟩]),
    (2, .or, [⟨8, 52, 7⟩, ⟨9, 52, 6⟩, ⟨10, 52, 5⟩, ⟨11, 52, 4⟩]),
    (3, .or, [⟨8, 48, 7⟩, ⟨9, 48, 6⟩, ⟨10, 48, 5⟩, ⟨11, 48, 4⟩]),
    (4, .or, [⟨8, 44, 7⟩, ⟨9, 44, 6⟩, ⟨10, 44, 5⟩, ⟨11, 44, 4⟩]),
    (5, .or, [⟨8, 40, 7⟩, ⟨9, 40, 6⟩, ⟨10, 40, 5⟩, ⟨11, 40, 4⟩]),
    (6, .or, [⟨8, 36, 7⟩, ⟨9, 36, 6⟩, ⟨10, 36, 5⟩, ⟨11, 36, 4⟩]),
    (7, .or, [⟨8, 32, 7⟩, ⟨9, 32, 6⟩, ⟨10, 32, 5⟩, ⟨11, 32, 4⟩]),
    (8, .or, [⟨8, 28, 7⟩, ⟨9, 28, 6⟩, ⟨10, 28, 5⟩, ⟨11, 28, 4⟩]),
    (9, .or, [⟨8, 24, 7⟩, ⟨9, 24, 6⟩, ⟨10, 24, 5⟩, ⟨11, 24, 4⟩]),
    (10, .or, [⟨8, 20, 7⟩, ⟨9, 20, 6⟩, ⟨10, 20, 5⟩, ⟨11, 20, 4⟩]),
    (11, .or, [⟨8, 16, 7⟩, ⟨9, 16, 6⟩, ⟨10, 16, 5⟩, ⟨11, 16, 4⟩]),
    (12, .or, [⟨8, 12, 7⟩, ⟨9, 12, 6⟩, ⟨10, 12, 5⟩, ⟨11, 12, 4⟩]),
    (13, .or, [⟨8, 8, 7⟩, ⟨9, 8, 6⟩, ⟨10, 8, 5⟩, ⟨11, 8, 4⟩]),
    (14, .or, [⟨8, 4, 7⟩, ⟨9, 4, 6⟩, ⟨10, 4, 5⟩, ⟨11, 4, 4⟩]),
    (15, .or, [⟨8, 0, 7⟩, ⟨9, 0, 6⟩, ⟨10, 0, 5⟩, ⟨11, 0, 4⟩])]
  cases := [
    (16, [(15, .or, [⟨8, 0, 7⟩, ⟨9, 0, 6⟩, ⟨10, 0, 5⟩, ⟨11, 0, 4⟩])]),
    (15, [(14, .or, [⟨8, 4, 7⟩, ⟨9, 4, 6⟩, ⟨10, 4, 5⟩, ⟨11, 4, 4⟩])]),
    (14, [(13, .or, [⟨8, 8, 7⟩, ⟨9, 8, 6⟩, ⟨10, 8, 5⟩, ⟨11, 8, 4⟩])]),
    (13, [(12, .or, [⟨8, 12, 7⟩, ⟨9, 12, 6⟩, ⟨10, 12, 5⟩, ⟨11, 12, 4⟩])]),
    (12, [(11, .or, [⟨8, 16, 7⟩, ⟨9, 16, 6⟩, ⟨10, 16, 5⟩, ⟨11, 16, 4⟩])]),
    (11, [(10, .or, [⟨8, 20, 7⟩, ⟨9, 20, 6⟩, ⟨10, 20, 5⟩, ⟨11, 20, 4⟩])]),
    (10, [(9, .or, [⟨8, 24, 7⟩, ⟨9, 24, 6⟩, ⟨10, 24, 5⟩, ⟨11, 24, 4⟩])]),
    (9, [(8, .or, [⟨8, 28, 7⟩, ⟨9, 28, 6⟩, ⟨10, 28, 5⟩, ⟨11, 28, 4⟩])]),
    (8, [(7, .or, [⟨8, 32, 7⟩, ⟨9, 32, 6⟩, ⟨10, 32, 5⟩, ⟨11, 32, 4⟩])]),
    (7, [(6, .or, [⟨8, 36, 7⟩, ⟨9, 36, 6⟩, ⟨10, 36, 5⟩, ⟨11, 36, 4⟩])]),
    (6, [(5, .or, [⟨8, 40, 7⟩, ⟨9, 40, 6⟩, ⟨10, 40, 5⟩, ⟨11, 40, 4⟩])]),
    (5, [(4, .or, [⟨8, 44, 7⟩, ⟨9, 44, 6⟩, ⟨10, 44, 5⟩, ⟨11, 44, 4⟩])]),
    (4, [(3, .or, [⟨8, 48, 7⟩, ⟨9, 48, 6⟩, ⟨10, 48, 5⟩, ⟨11, 48, 4⟩])]),
    (3, [(2, .or, [⟨8, 52, 7⟩, ⟨9, 52, 6⟩, ⟨10, 52, 5⟩, ⟨11, 52, 4⟩])]),
    (2, [(1, .or, [⟨8, 56, 7⟩, ⟨9, 56, 6⟩, ⟨10, 56, 5⟩, ⟨11, 56, 4⟩])]),
    (1, [(0, .or, [⟨8, 60, 7⟩, ⟨9, 60, 6⟩, ⟨10, 60, 5⟩, ⟨11, 60, 4⟩])])]
  fall := true

/-- conversion_cling16.c:332-378. -/
def clingPass16_13 : ClingPass where
  bulk := [
    (0, .or, [⟨12, 60, 3⟩]),
    (1, .or, [⟨12, 56, 3⟩]),
    (2, .or, [⟨12, 52, 3⟩]),
    (3, .or, [⟨12, 48, 3⟩]),
    (4, .or, [⟨12, 44, 3⟩]),
    (5, .or, [⟨12, 40, 3⟩]),
    (6, .or, [⟨12, 36, 3⟩]),
    (7, .or, [⟨12, 32, 3⟩]),
    (8, .or, [⟨12, 28, 3⟩]),
    (9, .or, [⟨12, 24, 3⟩]),
    (10, .or, [⟨12, 20, 3⟩]),
    (11, .or, [⟨12, 16, 3⟩]),
    (12, .or, [⟨12, 12, 3⟩]),
    (13, .or, [⟨12, 8, 3⟩]),
    (14, .or, [⟨12, 4, 3⟩]),
    (15, .or, [⟨12, 0, 3⟩])]
  cases := [
    (16, [(15, .or, [⟨12, 0, 3⟩])]),
    (15, [(14, .or, [⟨12, 4, 3⟩])]),
    (14, [(13, .or, [⟨12, 8, 3⟩])]),
    (13, [(12, .or, [⟨12, 12, 3⟩])]),
    (12, [(11, .or, [⟨12, 16, 3⟩])]),
    (11, [(10, .or, [⟨12, 20, 3⟩])]),
    (10, [(9, .or, [⟨12, 24, 3⟩])]),
    (9, [(8, .or, [⟨12, 28, 3⟩])]),
    (8, [(7, .or, [⟨12, 32, 3⟩])]),
    (7, [(6, .or, [⟨12, 36, 3⟩])]),
    (6, [(5, .or, [⟨12, 40, 3⟩])]),
    (5, [(4, .or, [⟨12, 44, 3⟩])]),
    (4, [(3, .or, [⟨12, 48, 3⟩])]),
    (3, [(2, .or, [⟨12, 52, 3⟩])]),
    (2, [(1, .or, [⟨12, 56, 3⟩])]),
    (1, [(0, .or, [⟨12, 60, 3⟩])])]
  fall := true

/-- conversion_cling16.c:382-429. -/
def clingPass16_14 : ClingPass where
  bulk := [
    (0, .or, [⟨12, 60, 3⟩, ⟨13, 60, 2⟩]),
    (1, .or, [⟨12, 56, 3⟩, ⟨13, 56, 2⟩]),
    (2, .or, [⟨12, 52, 3⟩, ⟨13, 52, 2⟩]),
    (3, .or, [⟨12, 48, 3⟩, ⟨13, 48, 2⟩]),
    (4, .or, [⟨12, 44, 3⟩, ⟨13, 44, 2⟩]),
    (5, .or, [⟨12, 40, 3⟩, ⟨13, 40, 2⟩]),
    (6, .or, [⟨12, 36, 3⟩, ⟨13, 36, 2⟩]),
    (7, .or, [⟨12, 32, 3⟩, ⟨13, 32, 2⟩]),
    (8, .or, [⟨12, 28, 3⟩, ⟨13, 28, 2⟩]),
    (9, .or, [⟨12, 24, 3⟩, ⟨13, 24, 2⟩]),
    (10, .or, [⟨12, 20, 3⟩, ⟨13, 20, 2⟩]),
    (11, .or, [⟨12, 16, 3⟩, ⟨13, 16, 2⟩]),
    (12, .or, [⟨12, 12, 3⟩, ⟨13, 12, 2⟩]),
    (13, .or, [⟨12, 8, 3⟩, ⟨13, 8, 2⟩]),
    (14, .or, [⟨12, 4, 3⟩, ⟨13, 4, 2⟩]),
    (15, .or, [⟨12, 0, 3⟩, ⟨13, 0, 2⟩])]
  cases := [
    (16, [(15, .or, [⟨12, 0, 3⟩, ⟨13, 0, 2⟩])]),
    (15, [(14, .or, [⟨12, 4, 3⟩, ⟨13, 4, 2⟩])]),
    (14, [(13, .or, [⟨12, 8, 3⟩, ⟨13, 8, 2⟩])]),
    (13, [(12, .or, [⟨12, 12, 3⟩, ⟨13, 12, 2⟩])]),
    (12, [(11, .or, [⟨12, 16, 3⟩, ⟨13, 16, 2⟩])]),
    (11, [(10, .or, [⟨12, 20, 3⟩, ⟨13, 20, 2⟩])]),
    (10, [(9, .or, [⟨12, 24, 3⟩, ⟨13, 24, 2⟩])]),
    (9, [(8, .or, [⟨12, 28, 3⟩, ⟨13, 28, 2⟩])]),
    (8, [(7, .or, [⟨12, 32, 3⟩, ⟨13, 32, 2⟩])]),
    (7, [(6, .or, [⟨12, 36, 3⟩, ⟨13, 36, 2⟩])]),
    (6, [(5, .or, [⟨12, 40, 3⟩, ⟨13, 40, 2⟩])]),
    (5, [(4, .or, [⟨12, 44, 3⟩, ⟨13, 44, 2⟩])]),
    (4, [(3, .or, [⟨12, 48, 3⟩, ⟨13, 48, 2⟩])]),
    (3, [(2, .or, [⟨12, 52, 3⟩, ⟨13, 52, 2⟩])]),
    (2, [(1, .or, [⟨12, 56, 3⟩, ⟨13, 56, 2⟩])]),
    (1, [(0, .or, [⟨12, 60, 3⟩, ⟨13, 60, 2⟩])])]
  fall := true

/-- conversion_cling16.c:433-481. -/
def clingPass16_15 : ClingPass where
  bulk := [
    (0, .or, [⟨12, 60, 3⟩, ⟨13, 60, 2⟩, ⟨14, 60, 1⟩]),
    (1, .or, [⟨12, 56, 3⟩, ⟨13, 56, 2⟩, ⟨14, 56, 1⟩]),
    (2, .or, [⟨12, 52, 3⟩, ⟨13, 52, 2⟩, ⟨14, 52, 1⟩]),
    (3, .or, [⟨12, 48, 3⟩, ⟨13, 48, 2⟩, ⟨14, 48, 1⟩]),
    (4, .or, [⟨12, 44, 3⟩, ⟨13, 44, 2⟩, ⟨14, 44, 1⟩]),
    (5, .or, [⟨12, 40, 3⟩, ⟨13, 40, 2⟩, ⟨14, 40, 1⟩]),
    (6, .or, [⟨12, 36, 3⟩, ⟨13, 36, 2⟩, ⟨14, 36, 1⟩]),
    (7, .or, [⟨12, 32, 3⟩, ⟨13, 32, 2⟩, ⟨14, 32, 1⟩]),
    (8, .or, [⟨12, 28, 3⟩, ⟨13, 28, 2⟩, ⟨14, 28, 1⟩]),
    (9, .or, [⟨12, 24, 3⟩, ⟨13, 24, 2⟩, ⟨14, 24, 1⟩]),
    (10, .or, [⟨12, 20, 3⟩, ⟨13, 20, 2⟩, ⟨14, 20, 1⟩]),
    (11, .or, [⟨12, 16, 3⟩, ⟨13, 16, 2⟩, ⟨14, 16, 1⟩]),
    (12, .or, [⟨12, 12, 3⟩, ⟨13, 12, 2⟩, ⟨14, 12, 1⟩]),
    (13, .or, [⟨12, 8, 3⟩, ⟨13, 8, 2⟩, ⟨14, 8, 1⟩]),
    (14, .or, [⟨12, 4, 3⟩, ⟨13, 4, 2⟩, ⟨14, 4, 1⟩]),
    (15, .or, [⟨12, 0, 3⟩, ⟨13, 0, 2⟩, ⟨14, 0, 1⟩])]
  cases := [
    (16, [(15, .or, [⟨12, 0, 3⟩, ⟨13, 0, 2⟩, ⟨14, 0, 1⟩])]),
    (15, [(14, .or, [⟨12, 4, 3⟩, ⟨13, 4, 2⟩, ⟨14, 4, 1⟩])]),
    (14, [(13, .or, [⟨12, 8, 3⟩, ⟨13, 8, 2⟩, ⟨14, 8, 1⟩])]),
    (13, [(12, .or, [⟨12, 12, 3⟩, ⟨13, 12, 2⟩, ⟨14, 12, 1⟩])]),
    (12, [(11, .or, [⟨12, 16, 3⟩, ⟨13, 16, 2⟩, ⟨14, 16, 1⟩])]),
    (11, [(10, .or, [⟨12, 20, 3⟩, ⟨13, 20, 2⟩, ⟨14, 20, 1⟩])]),
    (10, [(9, .or, [⟨12, 24, 3⟩, ⟨13, 24, 2⟩, ⟨14, 24, 1⟩])]),
    (9, [(8, .or, [⟨12, 28, 3⟩, ⟨13, 28, 2⟩, ⟨14, 28, 1⟩])]),
    (8, [(7, .or, [⟨12, 32, 3⟩, ⟨13, 32, 2⟩, ⟨14, 32, 1⟩])]),
    (7, [(6, .or, [⟨12, 36, 3⟩, ⟨13, 36, 2⟩, ⟨14, 36, 1⟩])]),
    (6, [(5, .or, [⟨12, 40, 3⟩, ⟨13, 40, 2⟩, ⟨14, 40, 1⟩])]),
    (5, [(4, .or, [⟨12, 44, 3⟩, ⟨13, 44, 2⟩, ⟨14, 44, 1⟩])]),
    (4, [(3, .or, [⟨12, 48, 3⟩, ⟨13, 48, 2⟩, ⟨14, 48, 1⟩])]),
    (3, [(2, .or, [⟨12, 52, 3⟩, ⟨13, 52, 2⟩, ⟨14, 52, 1⟩])]),
    (2, [(1, .or, [⟨12, 56, 3⟩, ⟨13, 56, 2⟩, ⟨14, 56, 1⟩])]),
    (1, [(0, .or, [⟨12, 60, 3⟩, ⟨13, 60, 2⟩, ⟨14, 60, 1⟩])])]
  fall := true

/-- conversion_cling16.c:485-534. -/
def clingPass16_16 : ClingPass where
  bulk := [
    (0, .or, [⟨12, 60, 3⟩, ⟨13, 60, 2⟩, ⟨14, 60, 1⟩, ⟨15, 60, 0⟩]),
    (1, .or, [⟨12, 56, 3⟩, ⟨13, 56, 2⟩, ⟨14, 56, 1⟩, ⟨15, 56, 0⟩]),
    (2, .or, [⟨12, 52, 3⟩, ⟨13, 52, 2⟩, ⟨14, 52, 1⟩, ⟨15, 52, 0⟩]),
    (3, .or, [⟨12, 48, 3⟩, ⟨13, 48, 2⟩, ⟨14, 48, 1⟩, ⟨15, 48, 0⟩]),
    (4, .or, [⟨12, 44, 3⟩, ⟨13, 44, 2⟩, ⟨14, 44, 1⟩, ⟨15, 44, 0⟩]),
    (5, .or, [⟨12, 40, 3⟩, ⟨13, 40, 2⟩, ⟨14, 40, 1⟩, ⟨15, 40, 0⟩]),
    (6, .or, [⟨12, 36, 3⟩, ⟨13, 36, 2⟩, ⟨14, 36, 1⟩, ⟨15, 36, 0⟩]),
    (7, .or, [⟨12, 32, 3⟩, ⟨13, 32, 2⟩, ⟨14, 32, 1⟩, ⟨15, 32, 0⟩]),
    (8, .or, [⟨12, 28, 3⟩, ⟨13, 28, 2⟩, ⟨14, 28, 1⟩, ⟨15, 28, 0⟩]),
    (9, .or, [⟨12, 24, 3⟩, ⟨13, 24, 2⟩, ⟨14, 24, 1⟩, ⟨15, 24, 0⟩]),
    (10, .or, [⟨12, 20, 3⟩, ⟨13, 20, 2⟩, ⟨14, 20, 1⟩, ⟨15, 20, 0⟩]),
    (11, .or, [⟨12, 16, 3⟩, ⟨13, 16, 2⟩, ⟨14, 16, 1⟩, ⟨15, 16, 0⟩]),
    (12, .or, [⟨12, 12, 3⟩, ⟨13, 12, 2⟩, ⟨14, 12, 1⟩, ⟨15, 12, 0⟩]),
    (13, .or, [⟨12, 8, 3⟩, ⟨13, 8, 2⟩, ⟨14, 8, 1⟩, ⟨15, 8, 0⟩]),
    (14, .or, [⟨12, 4, 3⟩, ⟨13, 4, 2⟩, ⟨14, 4, 1⟩, ⟨15, 4, 0⟩]),
    (15, .or, [⟨12, 0, 3⟩, ⟨13, 0, 2⟩, ⟨14, 0, 1⟩, ⟨15, 0, 0⟩])]
  cases := [
    (16, [(15, .or, [⟨12, 0, 3⟩, ⟨13, 0, 2⟩, ⟨14, 0, 1⟩, ⟨15, 0, 0⟩])]),
    (15, [(14, .or, [⟨12, 4, 3⟩, ⟨13, 4, 2⟩, ⟨14, 4, 1⟩, ⟨15, 4, 0⟩])]),
    (14, [(13, .or, [⟨12, 8, 3⟩, ⟨13, 8, 2⟩, ⟨14, 8, 1⟩, ⟨15, 8, 0⟩])]),
    (13, [(12, .or, [⟨12, 12, 3⟩, ⟨13, 12, 2⟩, ⟨14, 12, 1⟩, ⟨15, 12, 0⟩])]),
    (12, [(11, .or, [⟨12, 16, 3⟩, ⟨13, 16, 2⟩, ⟨14, 16, 1⟩, ⟨15, 16, 0⟩])]),
    (11, [(10, .or, [⟨12, 20, 3⟩, ⟨13, 20, 2⟩, ⟨14, 20, 1⟩, ⟨15, 20, 0⟩])]),
    (10, [(9, .or, [⟨12, 24, 3⟩, ⟨13, 24, 2⟩, ⟨14, 24, 1⟩, ⟨15, 24, 0⟩])]),
    (9, [(8, .or, [⟨12, 28, 3⟩, ⟨13, 28, 2⟩, ⟨14, 28, 1⟩, ⟨15, 28, 0⟩])]),
    (8, [(7, .or, [⟨12, 32, 3⟩, ⟨13, 32, 2⟩, ⟨14, 32, 1⟩, ⟨15, 32, 0⟩])]),
    (7, [(6, .or, [⟨12, 36, 3⟩, ⟨13, 36, 2⟩, ⟨14, 36, 1⟩, ⟨15, 36, 0⟩])]),
    (6, [(5, .or, [⟨12, 40, 3⟩, ⟨13, 40, 2⟩, ⟨14, 40, 1⟩, ⟨15, 40, 0⟩])]),
    (5, [(4, .or, [⟨12, 44, 3⟩, ⟨13, 44, 2⟩, ⟨14, 44, 1⟩, ⟨15, 44, 0⟩])]),
    (4, [(3, .or, [⟨12, 48, 3⟩, ⟨13, 48, 2⟩, ⟨14, 48, 1⟩, ⟨15, 48, 0⟩])]),
    (3, [(2, .or, [⟨12, 52, 3⟩, ⟨13, 52, 2⟩, ⟨14, 52, 1⟩, ⟨15, 52, 0⟩])]),
    (2, [(1, .or, [⟨12, 56, 3⟩, ⟨13, 56, 2⟩, ⟨14, 56, 1⟩, ⟨15, 56, 0⟩])]),
    (1, [(0, .or, [⟨12, 60, 3⟩, ⟨13, 60, 2⟩, ⟨14, 60, 1⟩, ⟨15, 60, 0⟩])])]
  fall := true

end M4rie
