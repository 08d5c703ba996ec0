import Verif.Model.NewtonJohn

/-!
# Adding four rows to a row

The one function of src/ that is never called (a static function of newton_john.c); its sibling `mzed_combine8` is in Model/NewtonJohn.
-/

namespace M4rie

/-- newton_john.c:62-66 `mzed_combine4(C,rc,T0,r0,T1,r1,T2,r2,T3,r3)`, with M4RI's `_mzd_combine_4(c,t,wide)` (external contract): the words `0 … wide-1` of `t[0]`, …, `t[3]` are added to those
of `c`, `wide` being the width of `C`. -/
def mzedCombine4 (C : Mzed) (rc : Nat) (T0 : Mzed) (r0 : Nat) (T1 : Mzed) (r1 : Nat) (T2 : Mzed) (r2 : Nat) (T3 : Mzed) (r3 : Nat) : Mzed :=
  { C with words := setRow C.words rc fun b =>
      if b < C.width then C.words rc b ^^^ (((T0.words r0 b ^^^ T1.words r1 b) ^^^ T2.words r2 b) ^^^ T3.words r3 b) else C.words rc b }

end M4rie
