import Verif.Model.C32
import Verif.Spec.Secp
import Verif.Proofs.Basic
import Verif.Concrete.ToySecp

/-! # Properties C18 - C20: signing preimages, message signatures, multi-sig scripts -/

namespace Stacks

theorem append_inj_of_length {a b c d : Bytes} (h : a ++ b = c ++ d) (hl : a.length = c.length) :
    a = c ∧ b = d := List.append_inj h hl

section
variable [Hashes]

/-- **C18** The pre-sign hash is SHA-512/256 of 49 bytes: the previous hash, the authorization
flag, fee and nonce, big-endian. If two pre-sign hashes agree then either all four inputs agree,
or these two explicitly given, different, byte strings collide under SHA-512/256. -/
theorem C18_presign_binding (h1 h2 : Arr 32) (t1 t2 : UInt8) (f1 f2 n1 n2 : UInt64)
    (h : makePresignHash h1 t1 f1 n1 = makePresignHash h2 t2 f2 n2) :
    (h1 = h2 ∧ t1 = t2 ∧ f1 = f2 ∧ n1 = n2) ∨
    (let m1 := h1.1 ++ t1 :: (beBytes 8 f1.toNat ++ beBytes 8 n1.toNat)
     let m2 := h2.1 ++ t2 :: (beBytes 8 f2.toNat ++ beBytes 8 n2.toNat)
     m1 ≠ m2 ∧ Hashes.sha512_256 m1 = Hashes.sha512_256 m2) := by
  by_cases he : h1.1 ++ t1 :: (be64 f1 ++ be64 n1) = h2.1 ++ t2 :: (be64 f2 ++ be64 n2)
  · left
    obtain ⟨e1, e2⟩ := append_inj_of_length he (by rw [h1.2, h2.2])
    obtain ⟨e3, e4⟩ := List.cons.inj e2
    obtain ⟨e5, e6⟩ := append_inj_of_length e4 (by simp)
    exact ⟨Subtype.ext e1, e3, be64_inj e5, be64_inj e6⟩
  · right
    refine ⟨he, ?_⟩
    have e : ∀ (h : Arr 32) (t : UInt8) (f n : UInt64), makePresignHash h t f n =
        Hashes.sha512_256 (h.1 ++ t :: (beBytes 8 f.toNat ++ beBytes 8 n.toNat)) := by
      intro h t f n
      unfold makePresignHash presignBytes signatureHash sha512_256Hash be64
      simp
    rw [e, e] at h
    exact h

/-- **C18** The post-sign hash is SHA-512/256 of 98 bytes: the pre-sign hash, the key encoding
byte 0 and the signature; equal post-sign hashes mean equal inputs or a collision of these
explicitly given byte strings. -/
theorem C18_postsign_binding (h1 h2 : Arr 32) (s1 s2 : Arr 65)
    (h : makePostsignHash h1 s1 = makePostsignHash h2 s2) :
    (h1 = h2 ∧ s1 = s2) ∨
    (h1.1 ++ 0 :: s1.1 ≠ h2.1 ++ 0 :: s2.1 ∧
      Hashes.sha512_256 (h1.1 ++ 0 :: s1.1) = Hashes.sha512_256 (h2.1 ++ 0 :: s2.1)) := by
  by_cases he : h1.1 ++ 0 :: s1.1 = h2.1 ++ 0 :: s2.1
  · left
    obtain ⟨e1, e2⟩ := append_inj_of_length he (by rw [h1.2, h2.2])
    exact ⟨Subtype.ext e1, Subtype.ext (List.cons.inj e2).2⟩
  · right
    refine ⟨he, ?_⟩
    have e : ∀ (h : Arr 32) (s : Arr 65), makePostsignHash h s = Hashes.sha512_256 (h.1 ++ 0 :: s.1) := by
      intro h s
      unfold makePostsignHash postsignBytes signatureHash sha512_256Hash
      simp
    rw [e, e] at h
    exact h

end

section
variable [Secp]

/-- **C19** `MessageSignature::from_slice` succeeds exactly on 65 bytes. -/
theorem C19_message_signature_from_slice (bs : Bytes) :
    (∀ h : bs.length = 65, messageSigFromSlice bs = .ok ⟨bs, h⟩) ∧
    (bs.length ≠ 65 → messageSigFromSlice bs = .err (.invalidMessageSigLength bs.length)) := by
  unfold messageSigFromSlice copyFromSlice
  constructor
  · intro h; rw [if_neg (not_not.2 h), dif_pos h]
  · intro h; rw [if_pos h]

/-- **C19** `from_recov` never fails and yields the recovery id followed by the 64 bytes. -/
theorem C19_message_signature_from_recov (r : Secp.RSig) :
    ∃ s : Arr 65, messageSigFromRecov r = .ok s ∧
      s.1 = UInt8.ofNat (Secp.compact r).1 :: (Secp.compact r).2.1 := by
  have hl : (UInt8.ofNat (Secp.compact r).1 :: (Secp.compact r).2.1).length = 65 := by
    rw [List.length_cons, (Secp.compact r).2.2]
  exact ⟨⟨_, hl⟩, (C19_message_signature_from_slice _).1 hl, rfl⟩

/-- **C19** `into_recov` inverts `from_recov`. -/
theorem C19_message_signature_roundtrip [Secp.Lawful] (r : Secp.RSig) :
    (messageSigFromRecov r >>= messageSigIntoRecov) = .ok r := by
  obtain ⟨s, h1, h2⟩ := C19_message_signature_from_recov r
  rw [h1, Outcome.ok_bind]
  unfold messageSigIntoRecov
  have hid : (UInt8.ofNat (Secp.compact r).1).toNat = (Secp.compact r).1 := by
    rw [UInt8.toNat_ofNat', Nat.mod_eq_of_lt]
    have := (Secp.compact r).1.2
    omega
  have e1 : (idx s.1 0 : Outcome (HashError Secp.Err) UInt8) = .ok (UInt8.ofNat (Secp.compact r).1) := by
    rw [idx_eq_ok, h2]; rfl
  have e2 : (sliceFrom s.1 1 : Outcome (HashError Secp.Err) Bytes) = .ok (Secp.compact r).2.1 := by
    rw [sliceFrom_eq_ok, h2]; simp
  rw [e1, e2]
  simp only [Outcome.ok_bind, hid, Fin.is_lt, dite_true, Fin.eta, Secp.Lawful.fromCompact_compact, ofExcept]

/-- **C19** A first byte outside 0..3 is rejected. -/
theorem C19_message_signature_bad_id (s : Arr 65) (b : UInt8) (rest : Bytes) (h : s.1 = b :: rest)
    (hb : 4 ≤ b.toNat) : messageSigIntoRecov s = .err (.secp256k1 Secp.invalidRecId) := by
  unfold messageSigIntoRecov
  have e1 : (idx s.1 0 : Outcome (HashError Secp.Err) UInt8) = .ok b := by rw [idx_eq_ok, h]; rfl
  rw [e1]
  simp only [Outcome.ok_bind]
  rw [dif_neg (by omega)]; rfl

end

namespace C32
open Spec
variable [Hashes] [Secp]

omit [Hashes] in
theorem multisigScript_eq {ε : Type} (m : UInt8) (keys : List Secp.PK) (hm : m.toNat ≤ 175)
    (hn : keys.length ≤ 175) :
    (multisigScript m keys : Outcome ε Bytes) = .ok (multisigScriptSpec m.toNat keys) := by
  have hlen : (UInt8.ofNat keys.length).toNat = keys.length := by
    rw [UInt8.toNat_ofNat', Nat.mod_eq_of_lt (by omega)]
  unfold multisigScript addU8
  rw [if_pos (by show m.toNat + 80 < 256; omega), hlen, if_pos (by show keys.length + 80 < 256; omega)]
  simp only [Outcome.ok_bind, Outcome.pure_def]
  congr 1
  unfold multisigScriptSpec
  have e1 : m + 80 = UInt8.ofNat (80 + m.toNat) := by
    apply UInt8.toNat_inj.1
    rw [UInt8.toNat_add, UInt8.toNat_ofNat', Nat.add_comm]; rfl
  have e2 : UInt8.ofNat keys.length + 80 = UInt8.ofNat (80 + keys.length) := by
    apply UInt8.toNat_inj.1
    rw [UInt8.toNat_add, hlen, UInt8.toNat_ofNat', Nat.add_comm]; rfl
  have e3 : (keys.flatMap fun key => UInt8.ofNat (Secp.serialize key).1.length :: (Secp.serialize key).1) =
      keys.flatMap (fun k => 33 :: (Secp.serialize k).1) := by
    congr 1
    funext k
    rw [(Secp.serialize k).2]; rfl
  rw [e1, e2, e3]
  simp

/-- **C20** `hash_p2sh` hashes the standard script as long as both numbers fit the opcodes. -/
theorem C20_hash_p2sh {ε : Type} (m : UInt8) (keys : List Secp.PK) (hm : m.toNat ≤ 175)
    (hn : keys.length ≤ 175) :
    (hashP2sh m keys : Outcome ε (Arr 20)) =
      .ok (Hashes.ripemd160 (Hashes.sha256 (multisigScriptSpec m.toNat keys)).1) := by
  unfold hashP2sh
  rw [multisigScript_eq m keys hm hn]; rfl

/-- **C20** `hash_p2wsh` hashes `0x00 0x20 SHA256(script)`. -/
theorem C20_hash_p2wsh {ε : Type} (m : UInt8) (keys : List Secp.PK) (hm : m.toNat ≤ 175)
    (hn : keys.length ≤ 175) :
    (hashP2wsh m keys : Outcome ε (Arr 20)) =
      .ok (Hashes.ripemd160 (Hashes.sha256
        (0x00 :: 0x20 :: (Hashes.sha256 (multisigScriptSpec m.toNat keys)).1)).1) := by
  unfold hashP2wsh
  rw [multisigScript_eq m keys hm hn]
  simp only [Outcome.ok_bind, Outcome.pure_def, sha256Hash, (Hashes.sha256 _).2]
  rfl

omit [Secp] in
/-- **C20** `hash_p2pkh` and `hash_p2wpkh`. -/
theorem C20_hash_single_key (input : Bytes) :
    hashP2pkh input = Hashes.ripemd160 (Hashes.sha256 input).1 ∧
    hashP2wpkh input = Hashes.ripemd160 (Hashes.sha256
      (0x00 :: 0x14 :: (Hashes.ripemd160 (Hashes.sha256 input).1).1)).1 := by
  refine ⟨rfl, ?_⟩
  unfold hashP2wpkh hash160 sha256Hash
  simp only [(Hashes.ripemd160 _).2]
  rfl

/-- **C20** Both panic when the number of signatures exceeds 175, or the number of keys modulo
256 does. -/
theorem C20_hash_multisig_panics {ε : Type} (m : UInt8) (keys : List Secp.PK)
    (h : 175 < m.toNat ∨ 175 < keys.length % 256) :
    (hashP2sh m keys : Outcome ε (Arr 20)) = .panic ∧ (hashP2wsh m keys : Outcome ε (Arr 20)) = .panic := by
  have hs : (multisigScript m keys : Outcome ε Bytes) = .panic := by
    unfold multisigScript addU8
    rcases h with h | h
    · rw [if_neg (by show ¬ m.toNat + 80 < 256; omega)]; rfl
    · split
      · rw [Outcome.ok_bind]
        simp only []
        rw [if_neg]
        · rfl
        · rw [UInt8.toNat_ofNat']
          show ¬ keys.length % 256 + 80 < 256
          omega
      · rfl
  unfold hashP2sh hashP2wsh
  rw [hs]
  exact ⟨rfl, rfl⟩

omit [Hashes] in
theorem flatMap_serialize_length (keys : List Secp.PK) :
    (keys.flatMap (fun k => 33 :: (Secp.serialize k).1)).length = 34 * keys.length := by
  induction keys with
  | nil => rfl
  | cons k keys ih =>
    rw [List.flatMap_cons, List.length_append, ih, List.length_cons, List.length_cons, (Secp.serialize k).2]
    omega

omit [Hashes] in
/-- **C20** The script determines the number of signatures and the keys in order. -/
theorem C20_script_injective [Secp.Lawful] (m1 m2 : Nat) (k1 k2 : List Secp.PK)
    (hm1 : m1 ≤ 175) (hm2 : m2 ≤ 175)
    (h : multisigScriptSpec m1 k1 = multisigScriptSpec m2 k2) : m1 = m2 ∧ k1 = k2 := by
  unfold multisigScriptSpec at h
  obtain ⟨h1, h2⟩ := List.cons.inj h
  have hm : m1 = m2 := by
    have := congrArg UInt8.toNat h1
    rw [UInt8.toNat_ofNat', UInt8.toNat_ofNat', Nat.mod_eq_of_lt (by omega), Nat.mod_eq_of_lt (by omega)] at this
    omega
  refine ⟨hm, ?_⟩
  have hl := congrArg List.length h2
  rw [List.length_append, List.length_append, flatMap_serialize_length, flatMap_serialize_length] at hl
  simp only [List.length_cons, List.length_nil] at hl
  have h3 := (List.append_inj h2 (by rw [flatMap_serialize_length, flatMap_serialize_length]; omega)).1
  clear h h1 h2 hl
  induction k1 generalizing k2 with
  | nil => cases k2 <;> simp at h3 ⊢
  | cons a k1 ih =>
    rcases k2 with _ | ⟨b, k2⟩
    · simp at h3
    · rw [List.flatMap_cons, List.flatMap_cons] at h3
      obtain ⟨h4, h5⟩ := List.append_inj h3 (by simp [(Secp.serialize a).2, (Secp.serialize b).2])
      rw [Secp.Lawful.serialize_injective a b (Subtype.ext (List.cons.inj h4).2), ih k2 h5]

end C32

/-! ### concrete cases: the vectors of c32.rs:423-461 -/

section
attribute [local instance] Concrete.realHashes

example : beVal (C32.hashP2pkh "bc1qcr8te4kr609gcawutmrza0j4xv80jy8z306fyu".toUTF8.toList).1 =
    0x00f65a2969863fd2558441b5c27ec49e6db80024 := by decide +kernel
example : beVal (C32.hashP2wpkh "bc1qcr8te4kr609gcawutmrza0j4xv80jy8z306fyu".toUTF8.toList).1 =
    0x9ecb2946469c02135e5c9d85a58d18e33fb8b7fa := by decide +kernel

/-- A `Secp` whose keys are their serializations, enough to evaluate multi-sig hashes. -/
@[reducible] def keySecp : Secp where
  SK := Unit
  PK := Arr 33
  RSig := Unit
  Err := Unit
  pub _ := zeros 33
  serialize p := p
  sign _ _ := ()
  recover _ _ := .error ()
  compact _ := (0, zeros 64)
  fromCompact _ _ := .error ()
  invalidRecId := ()

/-- The public key used by the repository's tests. -/
def testKey : Arr 33 :=
  ⟨beBytes 33 0x03ef788b3830c00abe8f64f62dc32fc863bc0b2cafeb073b6c8e1c7657d9c2c3ab, by simp⟩

attribute [local instance] keySecp

example : (C32.hashP2sh 2 [testKey, testKey] : Outcome Unit _) =
    .ok ⟨beBytes 20 0xb10bb6d6ff7a8b4de86614fadcc58c35808f1176, by simp⟩ := by decide +kernel
example : (C32.hashP2wsh 2 [testKey, testKey] : Outcome Unit _) =
    .ok ⟨beBytes 20 0x99febcfc05cb5f5836d257f34c3acb4c3a221813, by simp⟩ := by decide +kernel
example : (C32.hashP2sh 176 [testKey] : Outcome Unit _) = .panic := by decide +kernel

end

section
attribute [local instance] Concrete.toySecp
local instance : Secp.Lawful := Concrete.toyLawful

/-- The hypotheses of the round trip can be met. -/
example (r : Secp.RSig) : (messageSigFromRecov r >>= messageSigIntoRecov) = .ok r :=
  C19_message_signature_roundtrip r

/-! ### instances of the theorems with hypotheses -/

section
attribute [local instance] Concrete.realHashes

example (h : Arr 32) := C18_presign_binding h h 4 4 180 180 5 5 rfl
example (h : Arr 32) (s : Arr 65) := C18_postsign_binding h h s s rfl
example := C19_message_signature_bad_id ⟨4 :: List.replicate 64 1, rfl⟩ 4 (List.replicate 64 1) rfl (by decide)
example (k k' : Secp.PK) := C32.C20_hash_p2sh (ε := Unit) 2 [k, k'] (by decide) (by show 2 ≤ 175; decide)
example (k k' : Secp.PK) := C32.C20_hash_p2wsh (ε := Unit) 2 [k, k'] (by decide) (by show 2 ≤ 175; decide)
example (k k' : Secp.PK) := C32.C20_hash_multisig_panics (ε := Unit) 176 [k, k'] (.inl (by decide))
example (k k' : Secp.PK) := C32.C20_script_injective 2 2 [k, k'] [k, k'] (by decide) (by decide) rfl

end

end

end Stacks
