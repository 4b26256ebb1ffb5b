import Verif.Spec.JsonBody
import Verif.Spec.Rpc

/-! # What is read from a JSON value

JSON does not say how exact numbers are. A reader with integers of 64 bits and floats reads them like this. -/

namespace Stacks.Spec
open Stacks.Rpc (Json)

/-- How a number that is written `s` is read: natural numbers below 2⁶⁴ and negative integers down to −2⁶³
exactly; all others, with a fraction or exponent, too large or a negative zero, as floats, if there is one. -/
inductive ReadNumber {F : Type} (float : Str → Option F) : Str → Json F → Prop
  | nat {s n} : Decimal s n → n < 2 ^ 64 → ReadNumber float s (.num n)
  | neg {s n} : Decimal s n → 0 < n → n ≤ 2 ^ 63 → ReadNumber float ('-' :: s) (.neg (-n))
  | float {s f} : NumberText s → (∀ n, Decimal s n → 2 ^ 64 ≤ n) →
      (∀ t n, s = '-' :: t → Decimal t n → n = 0 ∨ 2 ^ 63 < n) → float s = some f → ReadNumber float s (.float f)

mutual
/-- The value with at most `d` arrays and objects inside each other is read as the one on the right. -/
inductive Reads {F : Type} (float : Str → Option F) : Nat → JsonVal → Json F → Prop
  | null {d} : Reads float d .null .null
  | bool {d} (b) : Reads float d (.bool b) (.bool b)
  | number {d s j} : ReadNumber float s j → Reads float d (.number s) j
  | string {d} (s) : Reads float d (.string s) (.str s)
  | array {d vs xs} : ReadsAll float d vs xs → Reads float (d + 1) (.array vs) (.arr xs)
  | object {d fs es} : ReadsMembers float d fs es → Reads float (d + 1) (.object fs) (.obj es)
/-- Value by value. -/
inductive ReadsAll {F : Type} (float : Str → Option F) : Nat → List JsonVal → List (Json F) → Prop
  | nil {d} : ReadsAll float d [] []
  | cons {d v x vs xs} : Reads float d v x → ReadsAll float d vs xs → ReadsAll float d (v :: vs) (x :: xs)
/-- Member by member. -/
inductive ReadsMembers {F : Type} (float : Str → Option F) : Nat → List (Str × JsonVal) → List (Str × Json F) → Prop
  | nil {d} : ReadsMembers float d [] []
  | cons {d k v x fs es} : Reads float d v x → ReadsMembers float d fs es →
      ReadsMembers float d ((k, v) :: fs) ((k, x) :: es)
end

/-- A value that comes back when it is written, floats as `fl` does it, and read: integers of 64 bits, floats
whose text is read as them, and at most `d` arrays and objects inside each other. -/
inductive FitsText {F : Type} (float : Str → Option F) (fl : F → Str) : Nat → Json F → Prop
  | null {d} : FitsText float fl d .null
  | bool {d} (b) : FitsText float fl d (.bool b)
  | num {d n} : n < 2 ^ 64 → FitsText float fl d (.num n)
  | neg {d} {i : Int} : i < 0 → -2 ^ 63 ≤ i → FitsText float fl d (.neg i)
  | float {d f} : ReadNumber float (fl f) (.float f) → FitsText float fl d (.float f)
  | str {d} (s) : FitsText float fl d (.str s)
  | arr {d xs} : (∀ x ∈ xs, FitsText float fl d x) → FitsText float fl (d + 1) (.arr xs)
  | obj {d es} : (∀ e ∈ es, FitsText float fl d e.2) → FitsText float fl (d + 1) (.obj es)

open Stacks.Rpc in
/-- The reply has this status, and its body is, in UTF-8, a JSON text that is read as `j`. -/
def RepliesJson [Http] (bytes : Http.Body → Bytes) (float : Str → Option Http.F64) (reply : Reply) (code : Nat)
    (j : J) : Prop :=
  ∃ body t v, reply = .response code body ∧ bytes body = Str.bytes t ∧ Document v t ∧ Reads float 127 v j

end Stacks.Spec
