import Verif.Model.Rpc
import Verif.Spec.JsonText
import Verif.Spec.ClarityLiteral

/-! # The JSON value a Rust value stands for -/

namespace Stacks.Spec
open Stacks.Rpc (Json)

mutual
/-- The JSON value on the right is the one meant: same constants and strings, integers in decimal,
floats by a relation that is given, arrays and objects entry by entry. -/
inductive Meant {F : Type} (IsFloat : F → Str → Prop) : Json F → JsonVal → Prop
  | null : Meant IsFloat .null .null
  | bool (b) : Meant IsFloat (.bool b) (.bool b)
  | num {n s} : Decimal s n → Meant IsFloat (.num n) (.number s)
  | neg {i s} : SignedDecimal s i → Meant IsFloat (.neg i) (.number s)
  | float {f s} : IsFloat f s → Meant IsFloat (.float f) (.number s)
  | str (s) : Meant IsFloat (.str s) (.string s)
  | arr {xs vs} : MeantAll IsFloat xs vs → Meant IsFloat (.arr xs) (.array vs)
  | obj {es fs} : MeantMembers IsFloat es fs → Meant IsFloat (.obj es) (.object fs)
/-- Value by value. -/
inductive MeantAll {F : Type} (IsFloat : F → Str → Prop) : List (Json F) → List JsonVal → Prop
  | nil : MeantAll IsFloat [] []
  | cons {x v xs vs} : Meant IsFloat x v → MeantAll IsFloat xs vs → MeantAll IsFloat (x :: xs) (v :: vs)
/-- Member by member. -/
inductive MeantMembers {F : Type} (IsFloat : F → Str → Prop) :
    List (Str × Json F) → List (Str × JsonVal) → Prop
  | nil : MeantMembers IsFloat [] []
  | cons {k x v xs vs} : Meant IsFloat x v → MeantMembers IsFloat xs vs →
      MeantMembers IsFloat ((k, x) :: xs) ((k, v) :: vs)
end

end Stacks.Spec
