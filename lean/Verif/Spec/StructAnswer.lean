import Verif.Spec.Derive
import Verif.Spec.ReadOnly

/-! # What a derived struct says about the tuple it was made from -/

namespace Stacks.Spec
open Stacks.Derive Stacks.Rpc
open Stacks.Clarity (CV)

/-- Two tuples mean the same for a field of a type under a key. Integers, booleans and bytes: the same value.
Texts: values that print alike. Options: both present, and the same integer in a `some` or no such integer; for
`Option<String>` values in a `some` that print alike, or no `some`. Other structs: tuples that make the same struct. -/
def SameFor (scope : Scope) (key : Str) (t t' : List (Str × CV)) : FieldType → Prop
  | .i128 | .u128 | .bool | .bytes => ∀ x, FirstUnder t key x ↔ FirstUnder t' key x
  | .string => ∃ x x', FirstUnder t key x ∧ FirstUnder t' key x' ∧ x.display = x'.display
  | .strings => ∃ xs xs', FirstUnder t key (.list xs) ∧ FirstUnder t' key (.list xs') ∧
      xs.map CV.display = xs'.map CV.display
  | .optI128 => (∃ x', FirstUnder t' key x') ∧
      ∀ x, FirstUnder t key (.optSome (.int x)) ↔ FirstUnder t' key (.optSome (.int x))
  | .optU128 => (∃ x', FirstUnder t' key x') ∧
      ∀ x, FirstUnder t key (.optSome (.uint x)) ↔ FirstUnder t' key (.optSome (.uint x))
  | .optString => ∀ s, (∃ x, FirstUnder t key (.optSome x) ∧ x.display = s) ↔
      ∃ x, FirstUnder t' key (.optSome x) ∧ x.display = s
  | .nested name => ∃ u u' v, FirstUnder t key (.tuple u) ∧ FirstUnder t' key (.tuple u') ∧
      scope name u = .ok v ∧ scope name u' = .ok v

/-- What a caller does with the answer of `read_only`: take the `0x` off, read the hexadecimal digits, decode them,
cast the value to a tuple and make the struct of it. `none` for every failure. -/
def structOf [Http] [Hashes] (scope : Scope) (impl : Impl) (result : Outcome Stacks.Rpc.Error ReadOnlyResponse) : Option Val :=
  match result with
  | .ok (.ok ⟨_, '0' :: 'x' :: h⟩) =>
    match Hex.hexToBytes h with
    | .ok bs =>
      match Clarity.decode bs with
      | .ok v =>
        match v.cast .tuple with
        | .ok t =>
          match impl.tryFrom scope t with
          | .ok s => some s
          | _ => none
        | _ => none
      | _ => none
    | _ => none
  | _ => none

end Stacks.Spec
