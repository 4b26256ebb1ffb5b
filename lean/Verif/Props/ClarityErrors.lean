import Verif.Proofs.ClarityPanic
import Verif.Concrete.Sha2
import Verif.Concrete.Ripemd

/-! # Properties C70 and C71: which errors `encode` and `decode_clarity_type` report, and when the
decoder panics -/

namespace Stacks.Clarity
open Stacks.Spec

section
variable [Hashes]

/-- **C70** `encode` returns an error exactly when some part of the value cannot be written, and
the error is that of the first such part. -/
theorem C70_encode_error_exact (v : CV) (e : Error) : v.encode = .err e ↔ EncodeFails v e :=
  encode_err_iff v e

/-- **C70** The order of the entries of a tuple is part of its encoding: entries are written in
the order in which they were inserted. -/
theorem C70_tuple_order_kept (es fs : List (Str × CV)) (bs : Bytes) (he : WellFormed (.tuple es))
    (hf : WellFormed (.tuple fs)) (h1 : (CV.tuple es).encode = .ok bs) (h2 : (CV.tuple fs).encode = .ok bs) :
    es = fs := by
  have := C23_encode_prefix_free _ _ bs bs he hf h1 h2 (List.prefix_refl _)
  exact CV.tuple.inj this

/-- **C71** `decode_clarity_type` returns an error exactly when some part of the input is not
acceptable, and the error is that of the first such part. -/
theorem C71_decode_error_exact (bytes : Bytes) (e : Error) : decode bytes = .err e ↔ DecodeFails bytes e :=
  decode_err_iff bytes e

/-- **C71** A result, value or error, does not change when more bytes follow. -/
theorem C71_result_stable (bytes rest : Bytes) (h : decode bytes ≠ .panic) :
    decode (bytes ++ rest) = decode bytes := decode_append h rest

/-- **C71** A panic means that the input ends too early: every input on which the decoder panics
is a proper prefix of one on which it returns. -/
theorem C71_panic_only_when_truncated (bytes : Bytes) (h : decode bytes = .panic) :
    ∃ rest, rest ≠ [] ∧ decode (bytes ++ rest) ≠ .panic := by
  obtain ⟨rest, hr⟩ := completable _ bytes (Nat.le_refl _)
  refine ⟨rest, ?_, hr⟩
  rintro rfl
  rw [List.append_nil] at hr
  exact hr h

/-- The encoding errors of values the decoder returns. -/
theorem accepted_errors {v : CV} {e : Error} (ha : Accepted v) (h : EncodeFails v e) :
    (∃ n, 128 < n ∧ n < 256 ∧ e = .badStringLength n 128) ∨ e = .badStringType "Ascii".toList := by
  induction h with
  | principalStd h =>
    obtain ⟨r, hr⟩ := C32.denotes_iff.1 (canonical_denotes ha)
    rw [(C32.address_err_iff _ _).2 h] at hr; cases hr
  | principalCon h =>
    obtain ⟨r, hr⟩ := C32.denotes_iff.1 (canonical_denotes ha.1)
    rw [(C32.address_err_iff _ _).2 h] at hr; cases hr
  | contractName _ hn => exact .inl ⟨_, hn, ha.2, rfl⟩
  | lps => exact absurd ha (by simp [Accepted])
  | buffer h | strUtf8 h => exact absurd (show _ < 2 ^ 32 from ha) (Nat.not_lt.2 h)
  | notAscii => exact .inr rfl
  | strAscii _ h => exact absurd (show _ < 2 ^ 32 from ha) (Nat.not_lt.2 h)
  | ok _ ih | err _ ih | some _ ih => exact ih ha
  | listSize h | tupleSize h => exact absurd ha.1 (Nat.not_lt.2 h)
  | fnArgsSize | fnArgs => exact absurd ha (by simp [Accepted])
  | list _ _ hf _ =>
    have hw := ha.2 _ (List.mem_append_right _ (List.mem_cons_self ..))
    have := encode_ok _ (wf_encodable _ hw)
    rw [fails_encode hf] at this; cases this
  | tupleKey _ _ hk =>
    have hw := ha.2 _ (List.mem_append_right _ (List.mem_cons_self ..))
    exact .inl ⟨_, hk, hw.1, rfl⟩
  | tuple _ _ _ hf _ =>
    have hw := ha.2 _ (List.mem_append_right _ (List.mem_cons_self ..))
    have := encode_ok _ (wf_encodable _ hw.2)
    rw [fails_encode hf] at this; cases this

/-- **C71** The errors `decode_clarity_type` can report: an unknown identifier, an unknown address
version, malformed UTF-8, or an element of a list or tuple that cannot be written again (a name or
key of more than 128 bytes, or an ASCII string that is not ASCII). In particular it never reports
`BadIdentifier` or `BadDowncast`. -/
theorem C71_possible_errors (bytes : Bytes) (e : Error) (h : decode bytes = .err e) :
    (∃ t, 0x0e < t ∧ e = .unexpectedType t) ∨
    (∃ v, ¬ KnownVersion v ∧ e = .c32 (.unknownAddressVersion v)) ∨
    e = .tryFromUtf8 ∨
    (∃ n, 128 < n ∧ n < 256 ∧ e = .badStringLength n 128) ∨
    e = .badStringType "Ascii".toList := by
  rw [C71_decode_error_exact] at h
  induction h with
  | @identifier t _ h => exact .inl ⟨t, h, rfl⟩
  | @stdVersion v _ _ _ h | @conVersion v _ _ _ h => exact .inr (.inl ⟨v, h, rfl⟩)
  | conName | tupleKey | strAscii | strUtf8 => exact .inr (.inr (.inl rfl))
  | ok _ ih | err _ ih | some _ ih => exact ih
  | list _ _ _ _ ih => exact ih
  | tuple _ _ _ _ _ ih => exact ih
  | listElement _ _ _ ha hf => exact .inr (.inr (.inr (accepted_errors ha hf)))
  | tupleElement _ _ _ _ ha hf => exact .inr (.inr (.inr (accepted_errors ha hf)))

end

section
attribute [local instance] Concrete.realHashes

/-- **C70** In particular the same bindings inserted in another order give other bytes: the encoder
does not sort the keys. -/
theorem C70_tuple_not_sorted :
    (CV.tuple [("a".toList, .tru), ("b".toList, .fls)]).encode = .ok [12, 0, 0, 0, 2, 1, 97, 3, 1, 98, 4] ∧
    (CV.tuple [("b".toList, .fls), ("a".toList, .tru)]).encode = .ok [12, 0, 0, 0, 2, 1, 98, 4, 1, 97, 3] := by
  decide +kernel

-- an encodable element, then a key that is too long
example : (CV.tuple [("a".toList, .tru), (List.replicate 129 'k', .strAscii ['é'])]).encode =
    .err (.badStringLength 129 128) := by decide +kernel
-- the first failing element decides
example : (CV.list [.tru, .strAscii ['é'], .principalStd "X".toList]).encode =
    .err (.badStringType "Ascii".toList) := by decide +kernel
example : (CV.list [.tru, .principalStd "X".toList, .strAscii ['é']]).encode =
    .err (.c32 (.badAddress "X".toList)) := by decide +kernel
example : EncodeFails (.list [.tru, .strAscii ['é'], .principalStd "X".toList]) (.badStringType "Ascii".toList) :=
  .list (pre := [.tru]) (by decide) (by intro p hp; simp at hp; subst hp; trivial)
    (.notAscii ⟨'é', by simp, by decide⟩)

-- every kind of decoding error occurs
example : decode [0x0f] = .err (.unexpectedType 0x0f) := by decide +kernel
example : decode ([0x05, 0] ++ List.replicate 20 0) = .err (.c32 (.unknownAddressVersion 0)) := by decide +kernel
example : decode [0x0e, 0, 0, 0, 1, 0xff] = .err .tryFromUtf8 := by decide +kernel
example : decode [0x0b, 0, 0, 0, 1, 0x0d, 0, 0, 0, 2, 0xc3, 0xa9] = .err (.badStringType "Ascii".toList) := by
  decide +kernel
example : decode ([0x0b, 0, 0, 0, 1, 0x0c, 0, 0, 0, 1, 129] ++ List.replicate 129 97 ++ [3]) =
    .err (.badStringLength 129 128) := by decide +kernel
example : DecodeFails [0x0b, 0, 0, 0, 2, 0x03, 0x07, 0x0f] (.unexpectedType 0x0f) :=
  .list (n := 2) (vs := [.tru]) (b := [0x07, 0x0f]) (by decide) (by decide) (by simp [WellFormed])
    (.ok (.identifier (by decide)))
-- a panic, and the input completed
example : decode [0x0b, 0, 0, 0, 2, 0x03] = .panic ∧ decode [0x0b, 0, 0, 0, 2, 0x03, 0x04] = .ok (.list [.tru, .fls]) := by
  decide +kernel

-- instances of the theorems with hypotheses
example : ([0x0c, 0, 0, 0, 2, 1, 97, 3, 1, 98, 4] : Bytes) ≠ [0x0c, 0, 0, 0, 2, 1, 98, 4, 1, 97, 3] := fun h => by
  have e1 : (CV.tuple [("a".toList, .tru), ("b".toList, .fls)]).encode = .ok [0x0c, 0, 0, 0, 2, 1, 97, 3, 1, 98, 4] := by
    decide +kernel
  have e2 : (CV.tuple [("b".toList, .fls), ("a".toList, .tru)]).encode = .ok [0x0c, 0, 0, 0, 2, 1, 98, 4, 1, 97, 3] := by
    decide +kernel
  exact absurd (C70_tuple_order_kept [("a".toList, .tru), ("b".toList, .fls)]
    [("b".toList, .fls), ("a".toList, .tru)] _ ⟨by decide, by decide, trivial, by decide, trivial, trivial⟩
    ⟨by decide, by decide, trivial, by decide, trivial, trivial⟩ e1 (h ▸ e2)) (by decide)
example := C71_result_stable [0x0b, 0, 0, 0, 1, 0x0f] [1, 2] (by decide +kernel)
example := C71_panic_only_when_truncated [0x0b, 0, 0, 0, 2, 0x03] (by decide +kernel)
example := C71_possible_errors ([0x05, 0] ++ List.replicate 20 0) (.c32 (.unknownAddressVersion 0)) (by decide +kernel)

end

end Stacks.Clarity
