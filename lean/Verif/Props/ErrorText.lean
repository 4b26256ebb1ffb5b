import Verif.Proofs.ErrorText
import Verif.Props.Verify
import Verif.Props.B58

/-! # Property C88: the text of an error says which error it is -/

namespace Stacks
open Spec

/-! ## C88 -/

/-- **C88** The text of a hexadecimal error determines it. -/
theorem C88_hex : Identifies Hex.Error.text (fun _ => True) := Hex.Error.text_inj

/-- **C88** The text of a C32 error determines it. -/
theorem C88_c32 : Identifies C32.Error.text (fun _ => True) := C32.Error.text_inj

/-- **C88** The text of a Base58 error determines it, for checksum errors that show bytes. -/
theorem C88_base58 : Identifies B58.Error.text BytesShown := B58.Error.text_inj

/-- **C88** The text of a Clarity error determines it, also when it is that of a C32 error. -/
theorem C88_clarity : Identifies Clarity.Error.text (fun _ => True) := Clarity.Error.text_inj

/-- **C88** The text of an error of signing, verification or encoding determines it, for signer errors
that show hashes. -/
theorem C88_transaction {E : Type} : Identifies (Tx.Error.text (E := E)) HashShown := Tx.Error.text_inj

/-- **C88** The text of a conversion error determines it. -/
theorem C88_derive : Identifies (fun e => some (Derive.Error.display e)) NamesShown := Derive.Error.text_inj

/-- **C88** The checksum errors of `base58check_decode` show bytes. -/
theorem C88_base58_reached [Hashes] (s : Str) (e : B58.Error) (h : B58.base58checkDecode s = .err e) :
    BytesShown e := by
  refine Shows.bind (o := B58.b58Decode s) ?_ (fun buff => ?_) e h
  · unfold B58.b58Decode
    split
    · exact .ok _
    · exact .bind (.decodeLoop _ _) fun _ => .ok _
  · refine .bind ?_ fun _ => .bind ?_ fun _ => .bind ?_ fun _ => .bind ?_ fun _ => .bind (.checksumLoop _ _ _) fun _ =>
      .bind (.orPanic _) fun _ => .ok _
    · split
      · exact .ok _
      · exact .panic
    · unfold sliceFrom; split
      · exact .ok _
      · exact .panic
    · unfold slice; split
      · exact .ok _
      · exact .panic
    · unfold slice; split
      · exact .ok _
      · exact .panic

theorem hash_shown {E : Type} (a : Bytes) (b : Str) : HashShown (.badSigner (hexText a) b : Tx.Error E) :=
  fun h => (Clarity.hex_tok (Hex.bytesToHex_eq a ▸ h)).1 rfl

section
open Tx
variable [Secp] [Hashes]

theorem spending_shown {h : Arr 32} {typ : UInt8} {c : Spending} {e : TxError}
    (v : SpendingVerdict h typ c (.err e)) : HashShown e := by
  cases v with
  | single v => cases v with
    | noKey => trivial
    | wrongKey => exact hash_shown _ _
  | multi v => cases v with
    | noKey => trivial
    | tooFew => trivial
    | wrongKeys => exact hash_shown _ _

/-- **C88** The signer errors of verification show hashes. -/
theorem C88_transaction_reached :
    (∀ (t : Transaction) (e : TxError), t.verifyOrigin = .err e → HashShown e) ∧
    (∀ (a : Auth) (h : Arr 32) (e : TxError), a.verify h = .err e → HashShown e) := by
  constructor
  · intro t e h
    cases (C74_origin_exact t _).1 h with
    | body => trivial
    | origin _ v => exact spending_shown v
  · intro a h e hv
    cases (C74_auth_exact a h _).1 hv with
    | originFails v => exact spending_shown v
    | sponsorFails _ v => exact spending_shown v

end

/-- **C88** Across the two alphabets the only text in common is that of a bad character. -/
theorem C88_alphabets (b : B58.Error) (c : C32.Error) (s : Str) (hb : BytesShown b) (h : b.text = some s) :
    c.text = some s ↔ ∃ ch, b = .badChar ch ∧ c = .badChar ch := by
  constructor
  · intro h'
    rw [← h'] at h
    cases b with
    | badChar x =>
      cases c with
      | badChar y =>
        have : x = y := by simpa [B58.Error.text, C32.Error.text] using h
        exact ⟨x, rfl, by rw [this]⟩
      | _ => simp [B58.Error.text, C32.Error.text] at h
    | badChecksum x y =>
      cases c with
      | badChecksum x' y' =>
        obtain ⟨bs, rfl⟩ := hb
        have h2 : B58.debugBytes bs ++ (", received: ".toList ++ y) =
            B58.debugBytes x'.1 ++ (", received ".toList ++ B58.debugBytes y') := by
          simpa [B58.Error.text, C32.Error.text] using h
        have := (debugBytes_inj h2).2
        simp at this
      | _ => simp [B58.Error.text, C32.Error.text] at h
    | unknownAddressVersion v =>
      cases c with
      | unknownAddressVersion w =>
        have h2 : showNat v.toNat = showNat w.toNat ++ " - expected one of '[22, 26, 20, 21]'".toList := by
          simpa [B58.Error.text, C32.Error.text] using h
        have : ' ' ∈ showNat v.toNat := by rw [h2]; simp
        exact absurd this (notMem_showNat _ (by decide))
      | _ => simp [B58.Error.text, C32.Error.text] at h
    | tryFromInt => rw [h'] at h; cases h
  · rintro ⟨ch, rfl, rfl⟩
    exact h

/-! ## Examples -/

example : (C32.Error.badChecksum ⟨[1, 2, 3, 4], rfl⟩ [1, 20, 3]).text =
    some "Bad checksum - expected [1, 2, 3, 4], received [1, 20, 3]".toList := by decide +kernel
example : (Hex.Error.unpaddedHex "a with length 1".toList 15).text =
    some "Received unpadded hex: input a with length 1 with length 15".toList := by decide +kernel
example : (Clarity.Error.badStringLength 200 128).text =
    some "Bad string length - received 200 bytes, max. 128 bytes".toList := by decide +kernel
example : (Tx.Error.badSignatureCount 2 1 : Tx.Error Unit).text =
    some "Invalid signature count, expected 2 - got: 1".toList := by decide +kernel
example : (Derive.Error.cast "a".toList "Vec<&'static str>".toList "S".toList).display =
    "Failed to cast field 'a' as 'Vec<&'static str>' on struct 'S'".toList := by decide +kernel

-- the side conditions are needed: two errors with one text
example : (B58.Error.badChecksum "x".toList "y, received: z".toList).text =
    (B58.Error.badChecksum "x, received: y".toList "z".toList).text := by decide +kernel
example : (Tx.Error.badSigner "x".toList "y - got: z".toList : Tx.Error Unit).text =
    (Tx.Error.badSigner "x - got: y".toList "z".toList : Tx.Error Unit).text := by decide +kernel
example : (Derive.Error.extract "a' on 'b".toList "c".toList).display =
    (Derive.Error.extract "a".toList "b' on 'c".toList).display := by decide +kernel

-- one text, two alphabets
example : (B58.Error.badChar 'l').text = (C32.Error.badChar 'l').text := by decide +kernel

end Stacks
