import Verif.Model.Rpc

/-! # Reading JSON

`ureq::Response::into_json` (rpc.rs:198, 207, 216, 238, 273) hands the body of a reply to `serde_json`,
which reads it up to the end. `serde_json` is a dependency and its source is not in /repo; this is how it
reads a value: nesting below its limit of 128, integers as integers when they fit 64 bits, other numbers by
a conversion to floats that is a parameter and fails when out of range.

Simplified: what a struct does not ask for is read like the rest. `serde_json` is more lenient there: such
parts may nest deeper, and their strings and floats are not looked at. -/

namespace Stacks.Rpc.Read

/-- rpc.rs:198: white space of JSON. -/
def isWs (c : Char) : Bool := c = ' ' || c = '\t' || c = '\n' || c = '\r'

/-- rpc.rs:198: white space is skipped. -/
def skipWs (t : Str) : Str := t.dropWhile isWs

/-- rpc.rs:198: a hexadecimal digit of either case. -/
def hexDigit (c : Char) : Option Nat :=
  if '0'.toNat ≤ c.toNat ∧ c.toNat ≤ '9'.toNat then some (c.toNat - '0'.toNat)
  else if 'a'.toNat ≤ c.toNat ∧ c.toNat ≤ 'f'.toNat then some (c.toNat - 'a'.toNat + 10)
  else if 'A'.toNat ≤ c.toNat ∧ c.toNat ≤ 'F'.toNat then some (c.toNat - 'A'.toNat + 10)
  else none

/-- rpc.rs:198: four hexadecimal digits. -/
def hex4 (a b c d : Char) : Option Nat := do
  pure ((((← hexDigit a) * 16 + (← hexDigit b)) * 16 + (← hexDigit c)) * 16 + (← hexDigit d))

/-- rpc.rs:198: the character after a backslash, except `u`. -/
def shortEscape (e : Char) : Option Char :=
  if e = '"' then some '"'
  else if e = '\\' then some '\\'
  else if e = '/' then some '/'
  else if e = 'b' then some '\x08'
  else if e = 'f' then some '\x0c'
  else if e = 'n' then some '\n'
  else if e = 'r' then some '\r'
  else if e = 't' then some '\t'
  else none

/-- rpc.rs:198: a character by its number, which must not be one of a surrogate. -/
def unitChar (n : Nat) : Option Char := if n < 0xd800 ∨ (0xe000 ≤ n ∧ n < 0x110000) then some (Char.ofNat n) else none

/-- rpc.rs:198: one character of a string, not the closing quotation mark, and what follows. -/
def char1 : Str → Option (Char × Str)
  | [] => none
  | c :: t =>
    if c = '\\' then
      match t with
      | [] => none
      | e :: t =>
        if e = 'u' then
          match t with
          | a :: b :: c :: d :: t =>
            match hex4 a b c d with
            | none => none
            | some n =>
              if 0xd800 ≤ n ∧ n < 0xdc00 then
                match t with
                | x :: y :: a :: b :: c :: d :: t =>
                  if x = '\\' ∧ y = 'u' then
                    match hex4 a b c d with
                    | none => none
                    | some m =>
                      if 0xdc00 ≤ m ∧ m < 0xe000 then
                        (unitChar (0x10000 + (n - 0xd800) * 0x400 + (m - 0xdc00))).map (·, t)
                      else none
                  else none
                | _ => none
              else (unitChar n).map (·, t)
          | _ => none
        else (shortEscape e).map (·, t)
    else if c.toNat < 0x20 then none
    else some (c, t)

/-- rpc.rs:198: the characters of a string up to the closing quotation mark. `fuel` bounds their number. -/
def chars : (fuel : Nat) → Str → Option (Str × Str)
  | 0, _ => none
  | fuel + 1, t =>
    match t with
    | [] => none
    | c :: r =>
      if c = '"' then some ([], r)
      else
        match char1 t with
        | none => none
        | some (d, r) =>
          match chars fuel r with
          | none => none
          | some (s, r) => some (d :: s, r)

/-- rpc.rs:198: decimal digits. -/
def isDigit (c : Char) : Bool := '0'.toNat ≤ c.toNat && c.toNat ≤ '9'.toNat

/-- rpc.rs:198: the value of decimal digits. -/
def digitsVal (s : Str) : Nat := s.foldl (fun n c => n * 10 + (c.toNat - '0'.toNat)) 0

/-- rpc.rs:198: an exponent, or nothing. -/
def isExponent : Str → Bool
  | [] => true
  | x :: r =>
    (x = 'e' || x = 'E') &&
    let d := match r with
      | [] => []
      | c :: q => if c = '+' ∨ c = '-' then q else r
    !d.isEmpty && d.all isDigit

/-- rpc.rs:198: a fraction, or nothing, and what `isExponent` accepts. -/
def isFraction (r : Str) : Bool :=
  match r with
  | [] => true
  | c :: q =>
    if c = '.' then !(q.takeWhile isDigit).isEmpty && isExponent (q.dropWhile isDigit) else isExponent r

/-- rpc.rs:198: the form of numbers: no superfluous zeros in front. -/
def isNumber (s : Str) : Bool :=
  let r := match s with
    | [] => []
    | c :: q => if c = '-' then q else s
  let i := r.takeWhile isDigit
  !i.isEmpty && (i.head? ≠ some '0' || i = ['0']) && isFraction (r.dropWhile isDigit)

section
variable {F : Type} (float : Str → Option F)

/-- rpc.rs:198: a number: an integer of 64 bits if it is written as one (`-0` is not), otherwise a float. -/
def number (s : Str) : Option (Json F) :=
  if isNumber s = false then none
  else if s.all isDigit = true ∧ digitsVal s < 2 ^ 64 then some (.num (digitsVal s))
  else if s.tail.all isDigit = true ∧ s.head? = some '-' ∧ 0 < digitsVal s.tail ∧ digitsVal s.tail ≤ 2 ^ 63 then
    some (.neg (-(digitsVal s.tail : Int)))
  else (float s).map .float

/-- rpc.rs:198: the characters numbers are made of. -/
def isNumberChar (c : Char) : Bool := isDigit c || c = '+' || c = '-' || c = '.' || c = 'e' || c = 'E'

mutual
/-- rpc.rs:198: a value at the start of the text and what follows it. `depth` is the remaining nesting. -/
def value : (fuel depth : Nat) → Str → Option (Json F × Str)
  | 0, _, _ => none
  | fuel + 1, depth, t =>
    match t with
    | [] => none
    | c :: r =>
      if c = 'n' then (if r.take 3 = "ull".toList then some (.null, r.drop 3) else none)
      else if c = 't' then (if r.take 3 = "rue".toList then some (.bool true, r.drop 3) else none)
      else if c = 'f' then (if r.take 4 = "alse".toList then some (.bool false, r.drop 4) else none)
      else if c = '"' then
        match chars (fuel + 1) r with
        | none => none
        | some (s, r) => some (.str s, r)
      else if c = '[' then
        if depth ≤ 1 then none
        else
          match skipWs r with
          | [] => none
          | d :: u =>
            if d = ']' then some (.arr [], u)
            else
              match items fuel (depth - 1) (d :: u) with
              | none => none
              | some (xs, r) => some (.arr xs, r)
      else if c = '{' then
        if depth ≤ 1 then none
        else
          match skipWs r with
          | [] => none
          | d :: u =>
            if d = '}' then some (.obj [], u)
            else
              match members fuel (depth - 1) (d :: u) with
              | none => none
              | some (es, r) => some (.obj es, r)
      else if c = '-' ∨ isDigit c = true then
        (number float (t.takeWhile isNumberChar)).map (·, t.dropWhile isNumberChar)
      else none
/-- rpc.rs:198: values with commas in between, up to the closing bracket. -/
def items : (fuel depth : Nat) → Str → Option (List (Json F) × Str)
  | 0, _, _ => none
  | fuel + 1, depth, t =>
    match value fuel depth t with
    | none => none
    | some (x, r) =>
      match skipWs r with
      | [] => none
      | c :: u =>
        if c = ']' then some ([x], u)
        else if c = ',' then
          match items fuel depth (skipWs u) with
          | none => none
          | some (xs, r) => some (x :: xs, r)
        else none
/-- rpc.rs:198: members with commas in between, up to the closing brace. -/
def members : (fuel depth : Nat) → Str → Option (List (Str × Json F) × Str)
  | 0, _, _ => none
  | fuel + 1, depth, t =>
    match t with
    | [] => none
    | q :: r =>
      if q ≠ '"' then none
      else
        match chars (fuel + 1) r with
        | none => none
        | some (k, r) =>
          match skipWs r with
          | [] => none
          | c :: u =>
            if c ≠ ':' then none
            else
              match value fuel depth (skipWs u) with
              | none => none
              | some (x, r) =>
                match skipWs r with
                | [] => none
                | c :: u =>
                  if c = '}' then some ([(k, x)], u)
                  else if c = ',' then
                    match members fuel depth (skipWs u) with
                    | none => none
                    | some (es, r) => some ((k, x) :: es, r)
                  else none
end

/-- rpc.rs:198 `serde_json::from_reader`: one value, and nothing but white space after it. -/
def document (t : Str) : Option (Json F) :=
  match value float (t.length + 1) 128 (skipWs t) with
  | none => none
  | some (j, r) => if skipWs r = [] then some j else none

/-- rpc.rs:198 `into_json`: the body must be UTF-8. -/
def body (bs : Bytes) : Option (Json F) := (fromUtf8 bs).bind (document float)

end

end Stacks.Rpc.Read
