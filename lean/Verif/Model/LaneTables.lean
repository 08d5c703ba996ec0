import Verif.Model.Gf2x

/-!
Generated by tools/gen_lanes.py from mzed.h / mzed.c: one entry per unrolled statement of
`mzed_rescale_row` and `mzed_add_multiple_of_row`, in source order.

* first-word switch / middle words: `case label: t ^= mul(x, a & mask) << shl; a >>= shr;`
  (`shr = 0` where the source has no further shift, label 0 where there is no label)
* last-word switch: `case label: t ^= mul(x, (a & mask) >> shr) << shl;`
-/

namespace M4rie

structure LaneOp where
  label : Nat
  mask : Word
  shr : Nat
  shl : Nat
deriving DecidableEq, Repr

/-- mzed.h:564 ff. -/
def rescaleFirstW2 : List LaneOp := [
  ⟨0, 0x0000000000000003#64, 2, 0⟩,
  ⟨1, 0x0000000000000003#64, 2, 2⟩,
  ⟨2, 0x0000000000000003#64, 2, 4⟩,
  ⟨3, 0x0000000000000003#64, 2, 6⟩,
  ⟨4, 0x0000000000000003#64, 2, 8⟩,
  ⟨5, 0x0000000000000003#64, 2, 10⟩,
  ⟨6, 0x0000000000000003#64, 2, 12⟩,
  ⟨7, 0x0000000000000003#64, 2, 14⟩,
  ⟨8, 0x0000000000000003#64, 2, 16⟩,
  ⟨9, 0x0000000000000003#64, 2, 18⟩,
  ⟨10, 0x0000000000000003#64, 2, 20⟩,
  ⟨11, 0x0000000000000003#64, 2, 22⟩,
  ⟨12, 0x0000000000000003#64, 2, 24⟩,
  ⟨13, 0x0000000000000003#64, 2, 26⟩,
  ⟨14, 0x0000000000000003#64, 2, 28⟩,
  ⟨15, 0x0000000000000003#64, 2, 30⟩,
  ⟨16, 0x0000000000000003#64, 2, 32⟩,
  ⟨17, 0x0000000000000003#64, 2, 34⟩,
  ⟨18, 0x0000000000000003#64, 2, 36⟩,
  ⟨19, 0x0000000000000003#64, 2, 38⟩,
  ⟨20, 0x0000000000000003#64, 2, 40⟩,
  ⟨21, 0x0000000000000003#64, 2, 42⟩,
  ⟨22, 0x0000000000000003#64, 2, 44⟩,
  ⟨23, 0x0000000000000003#64, 2, 46⟩,
  ⟨24, 0x0000000000000003#64, 2, 48⟩,
  ⟨25, 0x0000000000000003#64, 2, 50⟩,
  ⟨26, 0x0000000000000003#64, 2, 52⟩,
  ⟨27, 0x0000000000000003#64, 2, 54⟩,
  ⟨28, 0x0000000000000003#64, 2, 56⟩,
  ⟨29, 0x0000000000000003#64, 2, 58⟩,
  ⟨30, 0x0000000000000003#64, 2, 60⟩,
  ⟨31, 0x0000000000000003#64, 0, 62⟩]

/-- mzed.h:609 ff. -/
def rescaleMid0_W2 : List LaneOp := [
  ⟨0, 0x0000000000000003#64, 2, 0⟩,
  ⟨0, 0x0000000000000003#64, 2, 2⟩,
  ⟨0, 0x0000000000000003#64, 2, 4⟩,
  ⟨0, 0x0000000000000003#64, 2, 6⟩,
  ⟨0, 0x0000000000000003#64, 2, 8⟩,
  ⟨0, 0x0000000000000003#64, 2, 10⟩,
  ⟨0, 0x0000000000000003#64, 2, 12⟩,
  ⟨0, 0x0000000000000003#64, 2, 14⟩,
  ⟨0, 0x0000000000000003#64, 2, 16⟩,
  ⟨0, 0x0000000000000003#64, 2, 18⟩,
  ⟨0, 0x0000000000000003#64, 2, 20⟩,
  ⟨0, 0x0000000000000003#64, 2, 22⟩,
  ⟨0, 0x0000000000000003#64, 2, 24⟩,
  ⟨0, 0x0000000000000003#64, 2, 26⟩,
  ⟨0, 0x0000000000000003#64, 2, 28⟩,
  ⟨0, 0x0000000000000003#64, 2, 30⟩,
  ⟨0, 0x0000000000000003#64, 2, 32⟩,
  ⟨0, 0x0000000000000003#64, 2, 34⟩,
  ⟨0, 0x0000000000000003#64, 2, 36⟩,
  ⟨0, 0x0000000000000003#64, 2, 38⟩,
  ⟨0, 0x0000000000000003#64, 2, 40⟩,
  ⟨0, 0x0000000000000003#64, 2, 42⟩,
  ⟨0, 0x0000000000000003#64, 2, 44⟩,
  ⟨0, 0x0000000000000003#64, 2, 46⟩,
  ⟨0, 0x0000000000000003#64, 2, 48⟩,
  ⟨0, 0x0000000000000003#64, 2, 50⟩,
  ⟨0, 0x0000000000000003#64, 2, 52⟩,
  ⟨0, 0x0000000000000003#64, 2, 54⟩,
  ⟨0, 0x0000000000000003#64, 2, 56⟩,
  ⟨0, 0x0000000000000003#64, 2, 58⟩,
  ⟨0, 0x0000000000000003#64, 2, 60⟩,
  ⟨0, 0x0000000000000003#64, 0, 62⟩]

/-- mzed.h:646 ff. -/
def rescaleLastW2 : List LaneOp := [
  ⟨0, 0xC000000000000000#64, 62, 62⟩,
  ⟨62, 0x3000000000000000#64, 60, 60⟩,
  ⟨60, 0x0C00000000000000#64, 58, 58⟩,
  ⟨58, 0x0300000000000000#64, 56, 56⟩,
  ⟨56, 0x00C0000000000000#64, 54, 54⟩,
  ⟨54, 0x0030000000000000#64, 52, 52⟩,
  ⟨52, 0x000C000000000000#64, 50, 50⟩,
  ⟨50, 0x0003000000000000#64, 48, 48⟩,
  ⟨48, 0x0000C00000000000#64, 46, 46⟩,
  ⟨46, 0x0000300000000000#64, 44, 44⟩,
  ⟨44, 0x00000C0000000000#64, 42, 42⟩,
  ⟨42, 0x0000030000000000#64, 40, 40⟩,
  ⟨40, 0x000000C000000000#64, 38, 38⟩,
  ⟨38, 0x0000003000000000#64, 36, 36⟩,
  ⟨36, 0x0000000C00000000#64, 34, 34⟩,
  ⟨34, 0x0000000300000000#64, 32, 32⟩,
  ⟨32, 0x00000000C0000000#64, 30, 30⟩,
  ⟨30, 0x0000000030000000#64, 28, 28⟩,
  ⟨28, 0x000000000C000000#64, 26, 26⟩,
  ⟨26, 0x0000000003000000#64, 24, 24⟩,
  ⟨24, 0x0000000000C00000#64, 22, 22⟩,
  ⟨22, 0x0000000000300000#64, 20, 20⟩,
  ⟨20, 0x00000000000C0000#64, 18, 18⟩,
  ⟨18, 0x0000000000030000#64, 16, 16⟩,
  ⟨16, 0x000000000000C000#64, 14, 14⟩,
  ⟨14, 0x0000000000003000#64, 12, 12⟩,
  ⟨12, 0x0000000000000C00#64, 10, 10⟩,
  ⟨10, 0x0000000000000300#64, 8, 8⟩,
  ⟨8, 0x00000000000000C0#64, 6, 6⟩,
  ⟨6, 0x0000000000000030#64, 4, 4⟩,
  ⟨4, 0x000000000000000C#64, 2, 2⟩,
  ⟨2, 0x0000000000000003#64, 0, 0⟩]

/-- mzed.h:683 ff. -/
def rescaleFirstW4 : List LaneOp := [
  ⟨0, 0x000000000000000F#64, 4, 0⟩,
  ⟨1, 0x000000000000000F#64, 4, 4⟩,
  ⟨2, 0x000000000000000F#64, 4, 8⟩,
  ⟨3, 0x000000000000000F#64, 4, 12⟩,
  ⟨4, 0x000000000000000F#64, 4, 16⟩,
  ⟨5, 0x000000000000000F#64, 4, 20⟩,
  ⟨6, 0x000000000000000F#64, 4, 24⟩,
  ⟨7, 0x000000000000000F#64, 4, 28⟩,
  ⟨8, 0x000000000000000F#64, 4, 32⟩,
  ⟨9, 0x000000000000000F#64, 4, 36⟩,
  ⟨10, 0x000000000000000F#64, 4, 40⟩,
  ⟨11, 0x000000000000000F#64, 4, 44⟩,
  ⟨12, 0x000000000000000F#64, 4, 48⟩,
  ⟨13, 0x000000000000000F#64, 4, 52⟩,
  ⟨14, 0x000000000000000F#64, 4, 56⟩,
  ⟨15, 0x000000000000000F#64, 0, 60⟩]

/-- mzed.h:712 ff. -/
def rescaleMid0_W4 : List LaneOp := [
  ⟨0, 0x000000000000000F#64, 4, 0⟩,
  ⟨0, 0x000000000000000F#64, 4, 4⟩,
  ⟨0, 0x000000000000000F#64, 4, 8⟩,
  ⟨0, 0x000000000000000F#64, 4, 12⟩,
  ⟨0, 0x000000000000000F#64, 4, 16⟩,
  ⟨0, 0x000000000000000F#64, 4, 20⟩,
  ⟨0, 0x000000000000000F#64, 4, 24⟩,
  ⟨0, 0x000000000000000F#64, 4, 28⟩,
  ⟨0, 0x000000000000000F#64, 4, 32⟩,
  ⟨0, 0x000000000000000F#64, 4, 36⟩,
  ⟨0, 0x000000000000000F#64, 4, 40⟩,
  ⟨0, 0x000000000000000F#64, 4, 44⟩,
  ⟨0, 0x000000000000000F#64, 4, 48⟩,
  ⟨0, 0x000000000000000F#64, 4, 52⟩,
  ⟨0, 0x000000000000000F#64, 4, 56⟩,
  ⟨0, 0x000000000000000F#64, 0, 60⟩]

/-- mzed.h:733 ff. -/
def rescaleLastW4 : List LaneOp := [
  ⟨0, 0xF000000000000000#64, 60, 60⟩,
  ⟨60, 0x0F00000000000000#64, 56, 56⟩,
  ⟨56, 0x00F0000000000000#64, 52, 52⟩,
  ⟨52, 0x000F000000000000#64, 48, 48⟩,
  ⟨48, 0x0000F00000000000#64, 44, 44⟩,
  ⟨44, 0x00000F0000000000#64, 40, 40⟩,
  ⟨40, 0x000000F000000000#64, 36, 36⟩,
  ⟨36, 0x0000000F00000000#64, 32, 32⟩,
  ⟨32, 0x00000000F0000000#64, 28, 28⟩,
  ⟨28, 0x000000000F000000#64, 24, 24⟩,
  ⟨24, 0x0000000000F00000#64, 20, 20⟩,
  ⟨20, 0x00000000000F0000#64, 16, 16⟩,
  ⟨16, 0x000000000000F000#64, 12, 12⟩,
  ⟨12, 0x0000000000000F00#64, 8, 8⟩,
  ⟨8, 0x00000000000000F0#64, 4, 4⟩,
  ⟨4, 0x000000000000000F#64, 0, 0⟩]

/-- mzed.h:760 ff. -/
def rescaleFirstW8 : List LaneOp := [
  ⟨0, 0x00000000000000FF#64, 8, 0⟩,
  ⟨1, 0x00000000000000FF#64, 8, 8⟩,
  ⟨2, 0x00000000000000FF#64, 8, 16⟩,
  ⟨3, 0x00000000000000FF#64, 8, 24⟩,
  ⟨4, 0x00000000000000FF#64, 8, 32⟩,
  ⟨5, 0x00000000000000FF#64, 8, 40⟩,
  ⟨6, 0x00000000000000FF#64, 8, 48⟩,
  ⟨7, 0x00000000000000FF#64, 0, 56⟩]

/-- mzed.h:782 ff. -/
def rescaleMid0_0_W8 : List LaneOp := [
  ⟨0, 0x00000000000000FF#64, 8, 0⟩,
  ⟨0, 0x00000000000000FF#64, 8, 8⟩,
  ⟨0, 0x00000000000000FF#64, 8, 16⟩,
  ⟨0, 0x00000000000000FF#64, 8, 24⟩,
  ⟨0, 0x00000000000000FF#64, 8, 32⟩,
  ⟨0, 0x00000000000000FF#64, 8, 40⟩,
  ⟨0, 0x00000000000000FF#64, 8, 48⟩,
  ⟨0, 0x00000000000000FF#64, 8, 56⟩]

/-- mzed.h:783 ff. -/
def rescaleMid0_1_W8 : List LaneOp := [
  ⟨0, 0x00000000000000FF#64, 8, 0⟩,
  ⟨0, 0x00000000000000FF#64, 8, 8⟩,
  ⟨0, 0x00000000000000FF#64, 8, 16⟩,
  ⟨0, 0x00000000000000FF#64, 8, 24⟩,
  ⟨0, 0x00000000000000FF#64, 8, 32⟩,
  ⟨0, 0x00000000000000FF#64, 8, 40⟩,
  ⟨0, 0x00000000000000FF#64, 8, 48⟩,
  ⟨0, 0x00000000000000FF#64, 0, 56⟩]

/-- mzed.h:804 ff. -/
def rescaleMid2_0_W8 : List LaneOp := [
  ⟨0, 0x00000000000000FF#64, 8, 0⟩,
  ⟨0, 0x00000000000000FF#64, 8, 8⟩,
  ⟨0, 0x00000000000000FF#64, 8, 16⟩,
  ⟨0, 0x00000000000000FF#64, 8, 24⟩,
  ⟨0, 0x00000000000000FF#64, 8, 32⟩,
  ⟨0, 0x00000000000000FF#64, 8, 40⟩,
  ⟨0, 0x00000000000000FF#64, 8, 48⟩,
  ⟨0, 0x00000000000000FF#64, 0, 56⟩]

/-- mzed.h:817 ff. -/
def rescaleLastW8 : List LaneOp := [
  ⟨0, 0xFF00000000000000#64, 56, 56⟩,
  ⟨56, 0x00FF000000000000#64, 48, 48⟩,
  ⟨48, 0x0000FF0000000000#64, 40, 40⟩,
  ⟨40, 0x000000FF00000000#64, 32, 32⟩,
  ⟨32, 0x00000000FF000000#64, 24, 24⟩,
  ⟨24, 0x0000000000FF0000#64, 16, 16⟩,
  ⟨16, 0x000000000000FF00#64, 8, 8⟩,
  ⟨8, 0x00000000000000FF#64, 0, 0⟩]

/-- mzed.h:830 ff. -/
def rescaleFirstW16 : List LaneOp := [
  ⟨0, 0x000000000000FFFF#64, 16, 0⟩,
  ⟨1, 0x000000000000FFFF#64, 16, 16⟩,
  ⟨2, 0x000000000000FFFF#64, 16, 32⟩,
  ⟨3, 0x000000000000FFFF#64, 0, 48⟩]

/-- mzed.h:847 ff. -/
def rescaleMid0_W16 : List LaneOp := [
  ⟨0, 0x000000000000FFFF#64, 16, 0⟩,
  ⟨0, 0x000000000000FFFF#64, 16, 16⟩,
  ⟨0, 0x000000000000FFFF#64, 16, 32⟩,
  ⟨0, 0x000000000000FFFF#64, 0, 48⟩]

/-- mzed.h:854 ff. -/
def rescaleMid1_W16 : List LaneOp := [
  ⟨0, 0x000000000000FFFF#64, 16, 0⟩,
  ⟨0, 0x000000000000FFFF#64, 16, 16⟩,
  ⟨0, 0x000000000000FFFF#64, 16, 32⟩,
  ⟨0, 0x000000000000FFFF#64, 0, 48⟩]

/-- mzed.h:861 ff. -/
def rescaleMid2_W16 : List LaneOp := [
  ⟨0, 0x000000000000FFFF#64, 16, 0⟩,
  ⟨0, 0x000000000000FFFF#64, 16, 16⟩,
  ⟨0, 0x000000000000FFFF#64, 16, 32⟩,
  ⟨0, 0x000000000000FFFF#64, 0, 48⟩]

/-- mzed.h:868 ff. -/
def rescaleMid3_W16 : List LaneOp := [
  ⟨0, 0x000000000000FFFF#64, 16, 0⟩,
  ⟨0, 0x000000000000FFFF#64, 16, 16⟩,
  ⟨0, 0x000000000000FFFF#64, 16, 32⟩,
  ⟨0, 0x000000000000FFFF#64, 0, 48⟩]

/-- mzed.h:876 ff. -/
def rescaleMid4_W16 : List LaneOp := [
  ⟨0, 0x000000000000FFFF#64, 16, 0⟩,
  ⟨0, 0x000000000000FFFF#64, 16, 16⟩,
  ⟨0, 0x000000000000FFFF#64, 16, 32⟩,
  ⟨0, 0x000000000000FFFF#64, 0, 48⟩]

/-- mzed.h:885 ff. -/
def rescaleLastW16 : List LaneOp := [
  ⟨0, 0xFFFF000000000000#64, 48, 48⟩,
  ⟨48, 0x0000FFFF00000000#64, 32, 32⟩,
  ⟨32, 0x00000000FFFF0000#64, 16, 16⟩,
  ⟨16, 0x000000000000FFFF#64, 0, 0⟩]

/-- mzed.c:300 ff. -/
def addmulFirstW2 : List LaneOp := [
  ⟨0, 0x0000000000000003#64, 2, 0⟩,
  ⟨1, 0x0000000000000003#64, 2, 2⟩,
  ⟨2, 0x0000000000000003#64, 2, 4⟩,
  ⟨3, 0x0000000000000003#64, 2, 6⟩,
  ⟨4, 0x0000000000000003#64, 2, 8⟩,
  ⟨5, 0x0000000000000003#64, 2, 10⟩,
  ⟨6, 0x0000000000000003#64, 2, 12⟩,
  ⟨7, 0x0000000000000003#64, 2, 14⟩,
  ⟨8, 0x0000000000000003#64, 2, 16⟩,
  ⟨9, 0x0000000000000003#64, 2, 18⟩,
  ⟨10, 0x0000000000000003#64, 2, 20⟩,
  ⟨11, 0x0000000000000003#64, 2, 22⟩,
  ⟨12, 0x0000000000000003#64, 2, 24⟩,
  ⟨13, 0x0000000000000003#64, 2, 26⟩,
  ⟨14, 0x0000000000000003#64, 2, 28⟩,
  ⟨15, 0x0000000000000003#64, 2, 30⟩,
  ⟨16, 0x0000000000000003#64, 2, 32⟩,
  ⟨17, 0x0000000000000003#64, 2, 34⟩,
  ⟨18, 0x0000000000000003#64, 2, 36⟩,
  ⟨19, 0x0000000000000003#64, 2, 38⟩,
  ⟨20, 0x0000000000000003#64, 2, 40⟩,
  ⟨21, 0x0000000000000003#64, 2, 42⟩,
  ⟨22, 0x0000000000000003#64, 2, 44⟩,
  ⟨23, 0x0000000000000003#64, 2, 46⟩,
  ⟨24, 0x0000000000000003#64, 2, 48⟩,
  ⟨25, 0x0000000000000003#64, 2, 50⟩,
  ⟨26, 0x0000000000000003#64, 2, 52⟩,
  ⟨27, 0x0000000000000003#64, 2, 54⟩,
  ⟨28, 0x0000000000000003#64, 2, 56⟩,
  ⟨29, 0x0000000000000003#64, 2, 58⟩,
  ⟨30, 0x0000000000000003#64, 2, 60⟩,
  ⟨31, 0x0000000000000003#64, 0, 62⟩]

/-- mzed.c:345 ff. -/
def addmulMid0_W2 : List LaneOp := [
  ⟨0, 0x0000000000000003#64, 2, 0⟩,
  ⟨0, 0x0000000000000003#64, 2, 2⟩,
  ⟨0, 0x0000000000000003#64, 2, 4⟩,
  ⟨0, 0x0000000000000003#64, 2, 6⟩,
  ⟨0, 0x0000000000000003#64, 2, 8⟩,
  ⟨0, 0x0000000000000003#64, 2, 10⟩,
  ⟨0, 0x0000000000000003#64, 2, 12⟩,
  ⟨0, 0x0000000000000003#64, 2, 14⟩,
  ⟨0, 0x0000000000000003#64, 2, 16⟩,
  ⟨0, 0x0000000000000003#64, 2, 18⟩,
  ⟨0, 0x0000000000000003#64, 2, 20⟩,
  ⟨0, 0x0000000000000003#64, 2, 22⟩,
  ⟨0, 0x0000000000000003#64, 2, 24⟩,
  ⟨0, 0x0000000000000003#64, 2, 26⟩,
  ⟨0, 0x0000000000000003#64, 2, 28⟩,
  ⟨0, 0x0000000000000003#64, 2, 30⟩,
  ⟨0, 0x0000000000000003#64, 2, 32⟩,
  ⟨0, 0x0000000000000003#64, 2, 34⟩,
  ⟨0, 0x0000000000000003#64, 2, 36⟩,
  ⟨0, 0x0000000000000003#64, 2, 38⟩,
  ⟨0, 0x0000000000000003#64, 2, 40⟩,
  ⟨0, 0x0000000000000003#64, 2, 42⟩,
  ⟨0, 0x0000000000000003#64, 2, 44⟩,
  ⟨0, 0x0000000000000003#64, 2, 46⟩,
  ⟨0, 0x0000000000000003#64, 2, 48⟩,
  ⟨0, 0x0000000000000003#64, 2, 50⟩,
  ⟨0, 0x0000000000000003#64, 2, 52⟩,
  ⟨0, 0x0000000000000003#64, 2, 54⟩,
  ⟨0, 0x0000000000000003#64, 2, 56⟩,
  ⟨0, 0x0000000000000003#64, 2, 58⟩,
  ⟨0, 0x0000000000000003#64, 2, 60⟩,
  ⟨0, 0x0000000000000003#64, 0, 62⟩]

/-- mzed.c:381 ff. -/
def addmulLastW2 : List LaneOp := [
  ⟨0, 0xC000000000000000#64, 62, 62⟩,
  ⟨62, 0x3000000000000000#64, 60, 60⟩,
  ⟨60, 0x0C00000000000000#64, 58, 58⟩,
  ⟨58, 0x0300000000000000#64, 56, 56⟩,
  ⟨56, 0x00C0000000000000#64, 54, 54⟩,
  ⟨54, 0x0030000000000000#64, 52, 52⟩,
  ⟨52, 0x000C000000000000#64, 50, 50⟩,
  ⟨50, 0x0003000000000000#64, 48, 48⟩,
  ⟨48, 0x0000C00000000000#64, 46, 46⟩,
  ⟨46, 0x0000300000000000#64, 44, 44⟩,
  ⟨44, 0x00000C0000000000#64, 42, 42⟩,
  ⟨42, 0x0000030000000000#64, 40, 40⟩,
  ⟨40, 0x000000C000000000#64, 38, 38⟩,
  ⟨38, 0x0000003000000000#64, 36, 36⟩,
  ⟨36, 0x0000000C00000000#64, 34, 34⟩,
  ⟨34, 0x0000000300000000#64, 32, 32⟩,
  ⟨32, 0x00000000C0000000#64, 30, 30⟩,
  ⟨30, 0x0000000030000000#64, 28, 28⟩,
  ⟨28, 0x000000000C000000#64, 26, 26⟩,
  ⟨26, 0x0000000003000000#64, 24, 24⟩,
  ⟨24, 0x0000000000C00000#64, 22, 22⟩,
  ⟨22, 0x0000000000300000#64, 20, 20⟩,
  ⟨20, 0x00000000000C0000#64, 18, 18⟩,
  ⟨18, 0x0000000000030000#64, 16, 16⟩,
  ⟨16, 0x000000000000C000#64, 14, 14⟩,
  ⟨14, 0x0000000000003000#64, 12, 12⟩,
  ⟨12, 0x0000000000000C00#64, 10, 10⟩,
  ⟨10, 0x0000000000000300#64, 8, 8⟩,
  ⟨8, 0x00000000000000C0#64, 6, 6⟩,
  ⟨6, 0x0000000000000030#64, 4, 4⟩,
  ⟨4, 0x000000000000000C#64, 2, 2⟩,
  ⟨2, 0x0000000000000003#64, 0, 0⟩]

/-- mzed.c:417 ff. -/
def addmulFirstW4 : List LaneOp := [
  ⟨0, 0x000000000000000F#64, 4, 0⟩,
  ⟨1, 0x000000000000000F#64, 4, 4⟩,
  ⟨2, 0x000000000000000F#64, 4, 8⟩,
  ⟨3, 0x000000000000000F#64, 4, 12⟩,
  ⟨4, 0x000000000000000F#64, 4, 16⟩,
  ⟨5, 0x000000000000000F#64, 4, 20⟩,
  ⟨6, 0x000000000000000F#64, 4, 24⟩,
  ⟨7, 0x000000000000000F#64, 4, 28⟩,
  ⟨8, 0x000000000000000F#64, 4, 32⟩,
  ⟨9, 0x000000000000000F#64, 4, 36⟩,
  ⟨10, 0x000000000000000F#64, 4, 40⟩,
  ⟨11, 0x000000000000000F#64, 4, 44⟩,
  ⟨12, 0x000000000000000F#64, 4, 48⟩,
  ⟨13, 0x000000000000000F#64, 4, 52⟩,
  ⟨14, 0x000000000000000F#64, 4, 56⟩,
  ⟨15, 0x000000000000000F#64, 0, 60⟩]

/-- mzed.c:446 ff. -/
def addmulMid0_W4 : List LaneOp := [
  ⟨0, 0x000000000000000F#64, 4, 0⟩,
  ⟨0, 0x000000000000000F#64, 4, 4⟩,
  ⟨0, 0x000000000000000F#64, 4, 8⟩,
  ⟨0, 0x000000000000000F#64, 4, 12⟩,
  ⟨0, 0x000000000000000F#64, 4, 16⟩,
  ⟨0, 0x000000000000000F#64, 4, 20⟩,
  ⟨0, 0x000000000000000F#64, 4, 24⟩,
  ⟨0, 0x000000000000000F#64, 4, 28⟩,
  ⟨0, 0x000000000000000F#64, 4, 32⟩,
  ⟨0, 0x000000000000000F#64, 4, 36⟩,
  ⟨0, 0x000000000000000F#64, 4, 40⟩,
  ⟨0, 0x000000000000000F#64, 4, 44⟩,
  ⟨0, 0x000000000000000F#64, 4, 48⟩,
  ⟨0, 0x000000000000000F#64, 4, 52⟩,
  ⟨0, 0x000000000000000F#64, 4, 56⟩,
  ⟨0, 0x000000000000000F#64, 0, 60⟩]

/-- mzed.c:466 ff. -/
def addmulLastW4 : List LaneOp := [
  ⟨0, 0xF000000000000000#64, 60, 60⟩,
  ⟨60, 0x0F00000000000000#64, 56, 56⟩,
  ⟨56, 0x00F0000000000000#64, 52, 52⟩,
  ⟨52, 0x000F000000000000#64, 48, 48⟩,
  ⟨48, 0x0000F00000000000#64, 44, 44⟩,
  ⟨44, 0x00000F0000000000#64, 40, 40⟩,
  ⟨40, 0x000000F000000000#64, 36, 36⟩,
  ⟨36, 0x0000000F00000000#64, 32, 32⟩,
  ⟨32, 0x00000000F0000000#64, 28, 28⟩,
  ⟨28, 0x000000000F000000#64, 24, 24⟩,
  ⟨24, 0x0000000000F00000#64, 20, 20⟩,
  ⟨20, 0x00000000000F0000#64, 16, 16⟩,
  ⟨16, 0x000000000000F000#64, 12, 12⟩,
  ⟨12, 0x0000000000000F00#64, 8, 8⟩,
  ⟨8, 0x00000000000000F0#64, 4, 4⟩,
  ⟨4, 0x000000000000000F#64, 0, 0⟩]

/-- mzed.c:489 ff. -/
def addmulFirstW8 : List LaneOp := [
  ⟨0, 0x00000000000000FF#64, 8, 0⟩,
  ⟨1, 0x00000000000000FF#64, 8, 8⟩,
  ⟨2, 0x00000000000000FF#64, 8, 16⟩,
  ⟨3, 0x00000000000000FF#64, 8, 24⟩,
  ⟨4, 0x00000000000000FF#64, 8, 32⟩,
  ⟨5, 0x00000000000000FF#64, 8, 40⟩,
  ⟨6, 0x00000000000000FF#64, 8, 48⟩,
  ⟨7, 0x00000000000000FF#64, 0, 56⟩]

/-- mzed.c:511 ff. -/
def addmulMid0_0_W8 : List LaneOp := [
  ⟨0, 0x00000000000000FF#64, 8, 0⟩,
  ⟨0, 0x00000000000000FF#64, 8, 8⟩,
  ⟨0, 0x00000000000000FF#64, 8, 16⟩,
  ⟨0, 0x00000000000000FF#64, 8, 24⟩,
  ⟨0, 0x00000000000000FF#64, 8, 32⟩,
  ⟨0, 0x00000000000000FF#64, 8, 40⟩,
  ⟨0, 0x00000000000000FF#64, 8, 48⟩,
  ⟨0, 0x00000000000000FF#64, 0, 56⟩]

/-- mzed.c:512 ff. -/
def addmulMid0_1_W8 : List LaneOp := [
  ⟨0, 0x00000000000000FF#64, 8, 0⟩,
  ⟨0, 0x00000000000000FF#64, 8, 8⟩,
  ⟨0, 0x00000000000000FF#64, 8, 16⟩,
  ⟨0, 0x00000000000000FF#64, 8, 24⟩,
  ⟨0, 0x00000000000000FF#64, 8, 32⟩,
  ⟨0, 0x00000000000000FF#64, 8, 40⟩,
  ⟨0, 0x00000000000000FF#64, 8, 48⟩,
  ⟨0, 0x00000000000000FF#64, 0, 56⟩]

/-- mzed.c:533 ff. -/
def addmulMid2_0_W8 : List LaneOp := [
  ⟨0, 0x00000000000000FF#64, 8, 0⟩,
  ⟨0, 0x00000000000000FF#64, 8, 8⟩,
  ⟨0, 0x00000000000000FF#64, 8, 16⟩,
  ⟨0, 0x00000000000000FF#64, 8, 24⟩,
  ⟨0, 0x00000000000000FF#64, 8, 32⟩,
  ⟨0, 0x00000000000000FF#64, 8, 40⟩,
  ⟨0, 0x00000000000000FF#64, 8, 48⟩,
  ⟨0, 0x00000000000000FF#64, 0, 56⟩]

/-- mzed.c:545 ff. -/
def addmulLastW8 : List LaneOp := [
  ⟨0, 0xFF00000000000000#64, 56, 56⟩,
  ⟨56, 0x00FF000000000000#64, 48, 48⟩,
  ⟨48, 0x0000FF0000000000#64, 40, 40⟩,
  ⟨40, 0x000000FF00000000#64, 32, 32⟩,
  ⟨32, 0x00000000FF000000#64, 24, 24⟩,
  ⟨24, 0x0000000000FF0000#64, 16, 16⟩,
  ⟨16, 0x000000000000FF00#64, 8, 8⟩,
  ⟨8, 0x00000000000000FF#64, 0, 0⟩]

/-- mzed.c:565 ff. -/
def addmulFirstW16 : List LaneOp := [
  ⟨0, 0x000000000000FFFF#64, 16, 0⟩,
  ⟨1, 0x000000000000FFFF#64, 16, 16⟩,
  ⟨2, 0x000000000000FFFF#64, 16, 32⟩,
  ⟨3, 0x000000000000FFFF#64, 0, 48⟩]

/-- mzed.c:581 ff. -/
def addmulMid0_W16 : List LaneOp := [
  ⟨0, 0x000000000000FFFF#64, 16, 0⟩,
  ⟨0, 0x000000000000FFFF#64, 16, 16⟩,
  ⟨0, 0x000000000000FFFF#64, 16, 32⟩,
  ⟨0, 0x000000000000FFFF#64, 0, 48⟩]

/-- mzed.c:588 ff. -/
def addmulMid1_W16 : List LaneOp := [
  ⟨0, 0x000000000000FFFF#64, 16, 0⟩,
  ⟨0, 0x000000000000FFFF#64, 16, 16⟩,
  ⟨0, 0x000000000000FFFF#64, 16, 32⟩,
  ⟨0, 0x000000000000FFFF#64, 0, 48⟩]

/-- mzed.c:596 ff. -/
def addmulMid2_W16 : List LaneOp := [
  ⟨0, 0x000000000000FFFF#64, 16, 0⟩,
  ⟨0, 0x000000000000FFFF#64, 16, 16⟩,
  ⟨0, 0x000000000000FFFF#64, 16, 32⟩,
  ⟨0, 0x000000000000FFFF#64, 0, 48⟩]

/-- mzed.c:603 ff. -/
def addmulMid3_W16 : List LaneOp := [
  ⟨0, 0x000000000000FFFF#64, 16, 0⟩,
  ⟨0, 0x000000000000FFFF#64, 16, 16⟩,
  ⟨0, 0x000000000000FFFF#64, 16, 32⟩,
  ⟨0, 0x000000000000FFFF#64, 0, 48⟩]

/-- mzed.c:611 ff. -/
def addmulMid4_W16 : List LaneOp := [
  ⟨0, 0x000000000000FFFF#64, 16, 0⟩,
  ⟨0, 0x000000000000FFFF#64, 16, 16⟩,
  ⟨0, 0x000000000000FFFF#64, 16, 32⟩,
  ⟨0, 0x000000000000FFFF#64, 0, 48⟩]

/-- mzed.c:619 ff. -/
def addmulLastW16 : List LaneOp := [
  ⟨0, 0xFFFF000000000000#64, 48, 48⟩,
  ⟨48, 0x0000FFFF00000000#64, 32, 32⟩,
  ⟨32, 0x00000000FFFF0000#64, 16, 16⟩,
  ⟨16, 0x000000000000FFFF#64, 0, 0⟩]

end M4rie
