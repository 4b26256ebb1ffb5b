import Verif.Model.Rpc

/-! # The text of request bodies

`ureq::json!` and `send_json` (rpc.rs:213, rpc.rs:268-271) hand a JSON value to `serde_json`, which
writes it without white space. `serde_json` is a dependency and its source is not in /repo; this is
its compact format. How floats are written is a parameter: no request has one. -/

namespace Stacks.Rpc

/-- rpc.rs:213, rpc.rs:268-271: one character of a string, as `serde_json` writes it: short escapes
where it has them, `\u00xx` for the other control characters, everything else as it is. -/
def escapeChar (c : Char) : Str :=
  if c = '"' then ['\\', '"']
  else if c = '\\' then ['\\', '\\']
  else if c = '\x08' then ['\\', 'b']
  else if c = '\t' then ['\\', 't']
  else if c = '\n' then ['\\', 'n']
  else if c = '\x0c' then ['\\', 'f']
  else if c = '\r' then ['\\', 'r']
  else if c.toNat < 0x20 then
    "\\u00".toList ++ [Nat.digitChar (c.toNat / 16), Nat.digitChar (c.toNat % 16)]
  else [c]

/-- rpc.rs:213, rpc.rs:268-271: a string. -/
def stringText (s : Str) : Str := ['"'] ++ s.flatMap escapeChar ++ ['"']

mutual
/-- rpc.rs:213, rpc.rs:268-271: a value. -/
def Json.text {F : Type} (fl : F → Str) : Json F → Str
  | .null => "null".toList
  | .bool true => "true".toList
  | .bool false => "false".toList
  | .num n => Nat.toDigits 10 n
  | .neg i => if i < 0 then '-' :: Nat.toDigits 10 i.natAbs else Nat.toDigits 10 i.natAbs
  | .float f => fl f
  | .str s => stringText s
  | .arr xs => ['['] ++ Json.itemsText fl xs ++ [']']
  | .obj es => ['{'] ++ Json.membersText fl es ++ ['}']
/-- rpc.rs:268-271: the values of an array, with commas in between. -/
def Json.itemsText {F : Type} (fl : F → Str) : List (Json F) → Str
  | [] => []
  | [v] => Json.text fl v
  | v :: w :: vs => Json.text fl v ++ [','] ++ Json.itemsText fl (w :: vs)
/-- rpc.rs:213, rpc.rs:268-271: the members of an object, with commas in between. -/
def Json.membersText {F : Type} (fl : F → Str) : List (Str × Json F) → Str
  | [] => []
  | [(k, v)] => stringText k ++ [':'] ++ Json.text fl v
  | (k, v) :: e :: es => stringText k ++ [':'] ++ Json.text fl v ++ [','] ++ Json.membersText fl (e :: es)
end

end Stacks.Rpc
