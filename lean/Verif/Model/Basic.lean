/-!
# Rust vocabulary used by the model

Nothing here models a particular function of the repository; these are the Rust language
and `std` notions its code is written in.
-/

namespace Stacks

/-- The three ways a call of a Rust function returning `Result<α, ε>` can end:
`Ok(a)`, `Err(e)`, or a panic. Functions that return a plain value and can panic use the
same type (with an arbitrary `ε`). -/
inductive Outcome (ε α : Type) where
  | ok (a : α)
  | err (e : ε)
  | panic
deriving DecidableEq, Repr

namespace Outcome

variable {ε ε' α β : Type}

/-- The `?` operator. -/
protected def bind : Outcome ε α → (α → Outcome ε β) → Outcome ε β
  | ok a, f => f a
  | err e, _ => err e
  | panic, _ => panic

instance : Monad (Outcome ε) where
  pure := ok
  bind := Outcome.bind

/-- The error conversion `From::from` performed by `?`. -/
def mapErr (f : ε → ε') : Outcome ε α → Outcome ε' α
  | ok a => ok a
  | err e => err (f e)
  | panic => panic

/-- `opt.ok_or(e)`. -/
def ofOption (e : ε) : Option α → Outcome ε α
  | some a => ok a
  | none => err e

/-- Evaluation of an expression that panics when absent (indexing, slicing ...). -/
def orPanic : Option α → Outcome ε α
  | some a => ok a
  | none => panic

/-- Did the call return `Ok`? -/
def isOk : Outcome ε α → Bool
  | ok _ => true
  | _ => false

@[simp] theorem pure_def (a : α) : (pure a : Outcome ε α) = ok a := rfl
@[simp] theorem ok_bind (a : α) (f : α → Outcome ε β) : (ok a >>= f) = f a := rfl
@[simp] theorem err_bind (e : ε) (f : α → Outcome ε β) : (err e >>= f) = err e := rfl
@[simp] theorem panic_bind (f : α → Outcome ε β) : (panic >>= f) = panic := rfl
@[simp] theorem ok_map (a : α) (f : α → β) : (f <$> (ok a : Outcome ε α)) = ok (f a) := rfl
@[simp] theorem err_map (e : ε) (f : α → β) : (f <$> (err e : Outcome ε α)) = err e := rfl
@[simp] theorem panic_map (f : α → β) : (f <$> (panic : Outcome ε α)) = panic := rfl
@[simp] theorem mapErr_ok (f : ε → ε') (a : α) : (ok a : Outcome ε α).mapErr f = ok a := rfl
@[simp] theorem mapErr_err (f : ε → ε') (e : ε) : (err e : Outcome ε α).mapErr f = err (f e) := rfl
@[simp] theorem mapErr_panic (f : ε → ε') : (panic : Outcome ε α).mapErr f = panic := rfl
@[simp] theorem orPanic_some (a : α) : (orPanic (some a) : Outcome ε α) = ok a := rfl
@[simp] theorem orPanic_none : (orPanic none : Outcome ε α) = panic := rfl
@[simp] theorem ofOption_some (e : ε) (a : α) : ofOption e (some a) = ok a := rfl
@[simp] theorem ofOption_none (e : ε) : (ofOption e none : Outcome ε α) = err e := rfl
@[simp] theorem isOk_ok (a : α) : (ok a : Outcome ε α).isOk = true := rfl
@[simp] theorem isOk_err (e : ε) : (err e : Outcome ε α).isOk = false := rfl
@[simp] theorem isOk_panic : (panic : Outcome ε α).isOk = false := rfl

instance : LawfulMonad (Outcome ε) := LawfulMonad.mk' _
  (id_map := by intro α x; cases x <;> rfl)
  (pure_bind := by intros; rfl)
  (bind_assoc := by intro α β γ x f g; cases x <;> rfl)

theorem bind_eq_ok {x : Outcome ε α} {f : α → Outcome ε β} {b : β} :
    (x >>= f) = ok b ↔ ∃ a, x = ok a ∧ f a = ok b := by
  cases x <;> simp

theorem mapErr_eq_ok {x : Outcome ε α} {f : ε → ε'} {a : α} :
    x.mapErr f = ok a ↔ x = ok a := by
  cases x <;> simp

end Outcome

/-- `Vec<u8>` / `&[u8]`. -/
abbrev Bytes := List UInt8

/-- `String` / `&str`: a sequence of Unicode scalar values. -/
abbrev Str := List Char

/-- `[u8; n]`. -/
abbrev Arr (n : Nat) := { l : Bytes // l.length = n }

/-- `str.as_bytes()`: the UTF-8 encoding. -/
def Str.bytes (s : Str) : Bytes := s.flatMap String.utf8EncodeChar

/-- `str.len()`: the length in bytes. -/
def Str.len (s : Str) : Nat := s.bytes.length

/-- `String::from_utf8(bytes)`; `none` is the error case. -/
def fromUtf8 (bs : Bytes) : Option Str := (bs.toByteArray.utf8Decode?).map Array.toList

/-- `str.is_ascii()`: all bytes are below 128. -/
def Str.isAscii (s : Str) : Bool := s.bytes.all (fun b => b < 128)

/-- `bytes[i]`. -/
def idx {ε : Type} (bs : Bytes) (i : Nat) : Outcome ε UInt8 := Outcome.orPanic bs[i]?

/-- `&bytes[a..b]`. -/
def slice {ε : Type} (bs : Bytes) (a b : Nat) : Outcome ε Bytes :=
  if a ≤ b ∧ b ≤ bs.length then .ok ((bs.take b).drop a) else .panic

/-- `&bytes[a..]`. -/
def sliceFrom {ε : Type} (bs : Bytes) (a : Nat) : Outcome ε Bytes :=
  if a ≤ bs.length then .ok (bs.drop a) else .panic

/-- `let mut buff = [0u8; n]; buff.copy_from_slice(bytes)`: panics unless the lengths agree. -/
def copyFromSlice {ε : Type} (n : Nat) (bs : Bytes) : Outcome ε (Arr n) :=
  if h : bs.length = n then .ok ⟨bs, h⟩ else .panic

/-- `[0u8; n]`. -/
def zeros (n : Nat) : Arr n := ⟨List.replicate n 0, List.length_replicate ..⟩

/-- `x.to_be_bytes()` of an unsigned integer with `n` bytes (of `x mod 256^n`). -/
def beBytes : Nat → Nat → Bytes
  | 0, _ => []
  | n + 1, x => UInt8.ofNat (x / 256 ^ n) :: beBytes n (x % 256 ^ n)

/-- `from_be_bytes`: the unsigned number written by the bytes. -/
def beVal (bs : Bytes) : Nat := bs.foldl (fun a b => a * 256 + b.toNat) 0

/-- `u32::try_from(n: usize)` followed by `to_be_bytes`; `none` is `TryFromIntError`. -/
def u32Bytes (n : Nat) : Option Bytes := if n < 2 ^ 32 then some (beBytes 4 n) else none

/-- `u64::to_be_bytes`. -/
def be64 (x : UInt64) : Bytes := beBytes 8 x.toNat

end Stacks
