import Verif.Proofs.Payload

/-! # Properties C37 - C40: transaction payloads -/

namespace Stacks.Tx
open Stacks.Spec Stacks.Clarity

section
variable [Hashes]

/-- **C37** A memo longer than 34 bytes is refused, whatever the recipient. -/
theorem C37_long_memo (p : TokenTransfer) (h : 34 < p.memo.bytes.length) :
    p.encode = .err (.badStringLength p.memo.bytes.length 34) := by
  unfold TokenTransfer.encode
  rw [if_pos (by exact h)]; rfl

/-- **C37** Otherwise the encoding is 0x00, the recipient's encoding, the amount, and the memo
zero-padded to 34 bytes, and it fails exactly as encoding the recipient fails. -/
theorem C37_transfer_layout (p : TokenTransfer) (h : p.memo.bytes.length ≤ 34) :
    (∀ a, p.address.encode = .ok a →
      p.encode = .ok ([0x00] ++ a ++ beBytes 8 p.amount.toNat ++ p.memo.bytes ++
        List.replicate (34 - p.memo.bytes.length) 0)) ∧
    (∀ e, p.address.encode = .err e → p.encode = .err e) ∧ p.encode ≠ .panic := by
  rw [transfer_encode p h]
  refine ⟨fun a ha => ?_, fun e he => ?_, ?_⟩
  · rw [ha, Outcome.ok_bind]; simp [be64, memoField]
  · rw [he]; rfl
  · cases he : p.address.encode with
    | ok a => simp
    | err e => simp
    | panic => exact absurd he (encode_not_panic _)

/-- **C38** Round trip: same recipient and amount, padded memo; and encoding again gives the same
bytes. -/
theorem C38_transfer_roundtrip (p : TokenTransfer) (h : WellFormedTransfer p) :
    ∃ bs, p.encode = .ok bs ∧
      (∀ rest, TokenTransfer.decode (bs ++ rest) = .ok ⟨p.address, p.amount, paddedMemo p.memo⟩) ∧
      TokenTransfer.encode ⟨p.address, p.amount, paddedMemo p.memo⟩ = .ok bs := by
  refine ⟨_, transfer_encode_ok p h, fun rest => ?_, ?_⟩
  · rw [transfer_decode_iff]
    refine ⟨h.1, by rw [paddedMemo_bytes, memoField_length _ h.2], rest, ?_⟩
    simp only [tokenTransferBytes, memoField_padded _ h.2]
  · rw [transfer_encode_ok ⟨p.address, p.amount, paddedMemo p.memo⟩ ⟨h.1, by rw [paddedMemo_bytes, memoField_length _ h.2]⟩]
    simp only [tokenTransferBytes, memoField_padded _ h.2]

/-- **C38** What the decoder accepts, on every input: exactly the encodings of well-formed
transfers (the memo read being the 34 bytes), followed by anything. -/
theorem C38_transfer_decode_exact (bytes : Bytes) (p : TokenTransfer) :
    TokenTransfer.decode bytes = .ok p ↔
      WellFormedTransfer p ∧ p.memo.bytes.length = 34 ∧ ∃ bs, p.encode = .ok bs ∧ bs <+: bytes := by
  rw [transfer_decode_iff]
  constructor
  · rintro ⟨h1, h2, h3⟩
    have hw : WellFormedTransfer p := ⟨h1, by omega⟩
    exact ⟨hw, h2, _, transfer_encode_ok p hw, h3⟩
  · rintro ⟨hw, h2, bs, hb, h3⟩
    rw [transfer_encode_ok p hw] at hb; cases hb
    exact ⟨hw.1, h2, h3⟩

/-- **C39** The bytes of a contract call. -/
theorem C39_call_layout (p : ContractCall) (h : WellFormedCall p) : p.encode = .ok (contractCallBytes p) :=
  call_encode_ok p h

/-- **C39** Round trip. -/
theorem C39_call_roundtrip (p : ContractCall) (h : WellFormedCall p) :
    ∃ bs, p.encode = .ok bs ∧ ∀ rest, ContractCall.decode (bs ++ rest) = .ok p :=
  ⟨_, call_encode_ok p h, fun rest => (call_decode_iff _ p).2 ⟨h, rest, rfl⟩⟩

/-- **C39** What the decoder accepts, on every input. -/
theorem C39_call_decode_exact (bytes : Bytes) (p : ContractCall) :
    ContractCall.decode bytes = .ok p ↔ WellFormedCall p ∧ ∃ bs, p.encode = .ok bs ∧ bs <+: bytes := by
  rw [call_decode_iff]
  constructor
  · rintro ⟨hw, h3⟩
    exact ⟨hw, _, call_encode_ok p hw, h3⟩
  · rintro ⟨hw, bs, hb, h3⟩
    rw [call_encode_ok p hw] at hb; cases hb
    exact ⟨hw, h3⟩

/-- **C40** The decoder of boxed payloads looks at the first byte only. -/
theorem C40_dispatch (t : UInt8) (r : Bytes) :
    (t = 0x00 → Payload.decode (t :: r) = Payload.tokenTransfer <$> TokenTransfer.decode (t :: r)) ∧
    (t = 0x02 → Payload.decode (t :: r) = Payload.contractCall <$> ContractCall.decode (t :: r)) ∧
    (t ≠ 0x00 → t ≠ 0x02 → Payload.decode (t :: r) = .err (.unexpectedType t)) := by
  unfold Payload.decode
  rw [idx_zero_cons, Outcome.ok_bind]
  refine ⟨?_, ?_, fun h0 h2 => ?_⟩
  · rintro rfl
    rw [if_pos (by decide)]; cases TokenTransfer.decode (0 :: r) <;> rfl
  · rintro rfl
    rw [if_neg (by decide), if_pos (by decide)]; cases ContractCall.decode (2 :: r) <;> rfl
  · rw [if_neg (by exact h0), if_neg (by exact h2)]

/-- **C40** Each payload's own decoder refuses the other type bytes. -/
theorem C40_wrong_type (t : UInt8) (r : Bytes) :
    (t ≠ 0x00 → TokenTransfer.decode (t :: r) = .err (.unexpectedType t)) ∧
    (t ≠ 0x02 → ContractCall.decode (t :: r) = .err (.unexpectedType t)) := by
  constructor
  · intro h; unfold TokenTransfer.decode; rw [idx_zero_cons, Outcome.ok_bind, if_pos (by exact h)]
  · intro h; unfold ContractCall.decode; rw [idx_zero_cons, Outcome.ok_bind, if_pos (by exact h)]

/-- **C40** Round trip of boxed payloads. -/
theorem C40_payload_roundtrip (p : Payload) (h : WellFormedPayload p) :
    ∃ bs, p.encode = .ok bs ∧ ∀ rest, Payload.decode (bs ++ rest) = .ok (readBack p) := by
  cases p with
  | tokenTransfer p =>
    obtain ⟨bs, h1, h2, _⟩ := C38_transfer_roundtrip p h
    have e : bs = tokenTransferBytes p := by
      rw [transfer_encode_ok p h] at h1; exact (Outcome.ok.inj h1).symm
    refine ⟨bs, h1, fun rest => ?_⟩
    have := h2 rest
    subst e
    rw [tokenTransferBytes, List.cons_append, List.cons_append, List.cons_append] at this ⊢
    rw [(C40_dispatch 0 _).1 rfl, this]; rfl
  | contractCall p =>
    obtain ⟨bs, h1, h2⟩ := C39_call_roundtrip p h
    have e : bs = contractCallBytes p := by
      rw [call_encode_ok p h] at h1; exact (Outcome.ok.inj h1).symm
    refine ⟨bs, h1, fun rest => ?_⟩
    have := h2 rest
    subst e
    simp only [contractCallBytes, List.cons_append] at this ⊢
    rw [(C40_dispatch 2 _).2.1 rfl, this]; rfl

/-- **C40** If the encoding of one well-formed payload is a prefix of another's, they are equal up
to the padding of the memo. -/
theorem C40_payload_prefix_free (p q : Payload) (hp : WellFormedPayload p) (hq : WellFormedPayload q)
    (bp bq : Bytes) (ep : p.encode = .ok bp) (eq : q.encode = .ok bq) (h : bp <+: bq) :
    readBack p = readBack q := by
  obtain ⟨_, e1, d1⟩ := C40_payload_roundtrip p hp
  obtain ⟨_, e2, d2⟩ := C40_payload_roundtrip q hq
  rw [ep] at e1; cases e1
  rw [eq] at e2; cases e2
  obtain ⟨r, rfl⟩ := h
  have h1 := d1 r
  have h2 := d2 []
  rw [List.append_nil, h1] at h2
  exact Outcome.ok.inj h2

end

/-- **C40** What "up to padding" identifies: memos that differ in trailing NULs only. -/
theorem C40_padding_only (m m' : Str) (h : paddedMemo m = paddedMemo m') :
    ∃ s i j, m = s ++ List.replicate i '\x00' ∧ m' = s ++ List.replicate j '\x00' := by
  unfold paddedMemo at h
  rw [List.append_eq_append_iff] at h
  rcases h with ⟨a, h1, h2⟩ | ⟨a, h1, h2⟩
  · refine ⟨m, 0, a.length, by simp, ?_⟩
    rw [h1]; congr 1
    rw [List.eq_replicate_iff]
    refine ⟨rfl, fun c hc => ?_⟩
    have : c ∈ List.replicate (34 - m.bytes.length) '\x00' := by rw [h2]; exact List.mem_append_left _ hc
    exact (List.mem_replicate.1 this).2
  · refine ⟨m', a.length, 0, ?_, by simp⟩
    rw [h1]; congr 1
    rw [List.eq_replicate_iff]
    refine ⟨rfl, fun c hc => ?_⟩
    have : c ∈ List.replicate (34 - m'.bytes.length) '\x00' := by rw [h2]; exact List.mem_append_left _ hc
    exact (List.mem_replicate.1 this).2

deriving instance DecidableEq for TokenTransfer
deriving instance DecidableEq for ContractCall
deriving instance DecidableEq for Payload

section
attribute [local instance] Concrete.realHashes

/-- The recipient of the repository's own tests. -/
def testnetAddr : Str := "STB44HYPYAT2BB2QE513NSP81HTMYWBJP02HPGK6".toList

/-- The hash it stands for. -/
def testnetHash : Arr 20 := ⟨[0x16, 0x42, 0x47, 0xd6, 0xf2, 0xb4, 0x25, 0xac, 0x57, 0x71, 0x42, 0x3a, 0xe6, 0xc8,
  0x0c, 0x75, 0x4f, 0x71, 0x72, 0xb0], rfl⟩

theorem testnetAddr_canonical : CanonicalAddress testnetAddr := ⟨testnetHash, 26, by decide, by decide +kernel⟩

/-- The transfer of payload.rs:213-243. -/
def exTransfer : TokenTransfer := ⟨.principalStd testnetAddr, 100000, "Hello, world!".toList⟩

theorem exTransfer_wf : WellFormedTransfer exTransfer := ⟨testnetAddr_canonical, by decide +kernel⟩

/-- A contract call with nested arguments. -/
def exCall : ContractCall := ⟨⟨testnetHash, 26⟩, "contract".toList, "function".toList, [exValue, .uint 7, .tru]⟩

theorem exCall_wf : WellFormedCall exCall := by
  refine ⟨by decide +kernel, by decide +kernel, by decide +kernel, fun v hv => ?_⟩
  simp only [exCall, List.mem_cons, List.not_mem_nil, or_false] at hv
  rcases hv with rfl | rfl | rfl
  · exact exValue_wf
  · trivial
  · trivial

/-- C37, on the repository's vector. -/
example : exTransfer.encode = .ok ([0x00, 0x05, 0x1a] ++ testnetHash.1 ++ [0, 0, 0, 0, 0, 1, 0x86, 0xa0] ++
    Str.bytes "Hello, world!".toList ++ List.replicate 21 0) := by decide +kernel
example : TokenTransfer.encode ⟨.principalStd [], 1, List.replicate 35 'a'⟩ = .err (.badStringLength 35 34) :=
  C37_long_memo _ (by decide +kernel)
example : TokenTransfer.encode ⟨.principalStd "SP1".toList, 1, []⟩ = .err (.c32 (.badAddress "SP1".toList)) :=
  (C37_transfer_layout _ (by decide +kernel)).2.1 _ (by decide +kernel)

/-- C38. -/
example : ∃ bs, exTransfer.encode = .ok bs ∧
    TokenTransfer.decode (bs ++ [1, 2]) = .ok ⟨exTransfer.address, 100000, "Hello, world!".toList ++
      List.replicate 21 '\x00'⟩ :=
  let ⟨bs, h1, h2, _⟩ := C38_transfer_roundtrip exTransfer exTransfer_wf
  ⟨bs, h1, h2 _⟩

/-- C39. -/
example : ∃ bs, exCall.encode = .ok bs ∧ ∀ rest, ContractCall.decode (bs ++ rest) = .ok exCall :=
  C39_call_roundtrip exCall exCall_wf

/-- C40. -/
example : Payload.decode [0x01] = .err (.unexpectedType 1) := by decide +kernel
example : ∃ bs, Payload.encode (.tokenTransfer exTransfer) = .ok bs ∧
    ∀ rest, Payload.decode (bs ++ rest) = .ok (readBack (.tokenTransfer exTransfer)) :=
  C40_payload_roundtrip _ exTransfer_wf

/-- C38, C40 (finding): the memo does not come back as it was, so decoding is not inverse to
encoding, and two different transfers may have one encoding. -/
theorem C40_memo_padding_is_lost :
    exTransfer.encode = TokenTransfer.encode { exTransfer with memo := exTransfer.memo ++ ['\x00'] } ∧
      exTransfer.memo ≠ exTransfer.memo ++ ['\x00'] := by
  decide +kernel

/-- C39 (finding): the decoder refuses names it could read, of 129 to 255 bytes, because it
measures them by encoding them again. -/
theorem C39_long_name_refused :
    ContractCall.decode ([0x02, 26] ++ testnetHash.1 ++ [129] ++ List.replicate 129 97 ++ [1, 97, 0, 0, 0, 0]) =
      .err (.badStringLength 129 128) := by
  decide +kernel

end
end Stacks.Tx
