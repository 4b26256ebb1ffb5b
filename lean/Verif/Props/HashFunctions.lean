import Verif.Proofs.HashFunctions
import Verif.Concrete.Bip32
import Verif.Props.C32
import Verif.Spec.AddressText

/-! # C106: the digests are those of the standards -/

namespace Stacks.Concrete
open Stacks.Spec.HashFunctions

/-! ## The tables -/

theorem good32 : Good words32 := by constructor <;> decide
theorem good64 : Good words64 := by constructor <;> decide

/-- The constants, checked against the cube roots. -/
def checkTable (w n : Nat) (ks : List Nat) : Bool :=
  Nat.beq ks.length n && (List.range n).all fun t => Nat.blt (ks.getD t 0) (2 ^ w) &&
    (List.range 8).any fun a =>
      Nat.ble ((a * 2 ^ w + ks.getD t 0) ^ 3) (primes.getD t 0 * 2 ^ (3 * w)) &&
      Nat.blt (primes.getD t 0 * 2 ^ (3 * w)) ((a * 2 ^ w + ks.getD t 0 + 1) ^ 3)

theorem table_of_check (V : Variant) (hn : V.rounds ≤ 80) (ks : List Nat) (h : checkTable V.w V.rounds ks = true) :
    Table V ks := by
  rw [checkTable, Bool.and_eq_true, Nat.beq_eq, List.all_eq_true] at h
  refine ⟨h.1, fun t ht => ?_⟩
  have := h.2 t (List.mem_range.2 ht)
  rw [Bool.and_eq_true, Nat.blt_eq, List.any_eq_true] at this
  obtain ⟨h1, a, -, h2⟩ := this
  rw [Bool.and_eq_true, Nat.ble_eq, Nat.blt_eq] at h2
  rw [prime_eq t (by omega)]
  exact ⟨h1, a, h2.1, h2.2⟩

theorem table32 : Table words32 sha256P.rounds := table_of_check words32 (by decide) _ (by decide +kernel)
theorem table64 : Table words64 sha512_256P.rounds := table_of_check words64 (by decide) _ (by decide +kernel)

/-- An initial value from a table. -/
def registers (w : Nat) (iv : List Nat) : Registers w :=
  ⟨.ofNat w (iv.getD 0 0), .ofNat w (iv.getD 1 0), .ofNat w (iv.getD 2 0), .ofNat w (iv.getD 3 0),
    .ofNat w (iv.getD 4 0), .ofNat w (iv.getD 5 0), .ofNat w (iv.getD 6 0), .ofNat w (iv.getD 7 0)⟩

theorem registers_nats (w : Nat) (iv : List Nat)
    (h : (Nat.beq iv.length 8 && iv.all fun x => Nat.blt x (2 ^ w)) = true) : nats (registers w iv) = iv := by
  rw [Bool.and_eq_true, Nat.beq_eq, List.all_eq_true] at h
  obtain ⟨hl, h⟩ := h
  match iv, hl with
  | [a, b, c, d, e, f, g, i], _ =>
    simp only [Nat.blt_eq, List.mem_cons, List.not_mem_nil, or_false, forall_eq_or_imp, forall_eq] at h
    obtain ⟨ha, hb, hc, hd, he, hf, hg, hi⟩ := h
    simp only [nats, registers, Registers.words, List.getD_cons_zero, List.getD_cons_succ, List.map_cons, List.map_nil,
      BitVec.toNat_ofNat, Nat.mod_eq_of_lt ha, Nat.mod_eq_of_lt hb, Nat.mod_eq_of_lt hc, Nat.mod_eq_of_lt hd,
      Nat.mod_eq_of_lt he, Nat.mod_eq_of_lt hf, Nat.mod_eq_of_lt hg, Nat.mod_eq_of_lt hi]

/-- The initial value, checked against the square roots. -/
def checkRoots (w : Nat) (iv : List Nat) : Bool :=
  (List.range 8).all fun i => (List.range 5).any fun a =>
    Nat.ble ((a * 2 ^ w + iv.getD i 0) ^ 2) (primes.getD i 0 * 2 ^ (2 * w)) &&
    Nat.blt (primes.getD i 0 * 2 ^ (2 * w)) ((a * 2 ^ w + iv.getD i 0 + 1) ^ 2)

theorem roots_of_check (w : Nat) (iv : List Nat) (h : checkRoots w iv = true)
    (hn : (Nat.beq iv.length 8 && iv.all fun x => Nat.blt x (2 ^ w)) = true) : RootsIv (registers w iv) := by
  intro i hi
  have e : ((registers w iv).words.getD i 0).toNat = iv.getD i 0 := by
    have := registers_nats w iv hn
    rw [nats] at this
    conv => rhs; rw [← this]
    rw [List.getD_eq_getElem _ _ (by simpa [Registers.words] using hi),
      List.getD_eq_getElem _ _ (by simpa [Registers.words] using hi), List.getElem_map]
  have := List.all_eq_true.1 h i (List.mem_range.2 hi)
  rw [List.any_eq_true] at this
  obtain ⟨a, -, h2⟩ := this
  rw [Bool.and_eq_true, Nat.ble_eq, Nat.blt_eq] at h2
  rw [e, prime_eq i (by omega)]
  refine ⟨?_, a, h2.1, h2.2⟩
  rw [← e]
  exact BitVec.isLt _

theorem nats32 : nats (registers 32 sha256P.iv) = sha256P.iv := registers_nats _ _ (by decide +kernel)
theorem nats512 : nats (registers 64 Bip32.sha512P.iv) = Bip32.sha512P.iv := registers_nats _ _ (by decide +kernel)
theorem nats256 : nats (registers 64 sha512_256P.iv) = sha512_256P.iv := registers_nats _ _ (by decide +kernel)

theorem roots32 : RootsIv (registers 32 sha256P.iv) := roots_of_check _ _ (by decide +kernel) (by decide +kernel)
theorem roots512 : RootsIv (registers 64 Bip32.sha512P.iv) := roots_of_check _ _ (by decide +kernel) (by decide +kernel)

/-- Every byte changed by a5, as 5.3.6 has it. -/
def ivGeneration : List Nat := Bip32.sha512P.iv.map (· ^^^ 0xa5a5a5a5a5a5a5a5)

theorem natsGen : nats (registers 64 ivGeneration) = ivGeneration := registers_nats _ _ (by decide +kernel)

theorem sha2_run {V : Variant} (hV : Good V) {ks : List Nat} (hk : Table V ks) (iv : Registers V.w) {l : List Nat} (hl : nats iv = l)
    (msg : Bytes) (hm : 8 * msg.length < 2 ^ (2 * V.w)) (digest : Bytes) :
    Sha2From V iv msg digest ↔ digest = ((exec V ks l).blocks
      (Sha2.chunks (2 * V.w) ((exec V ks l).pad msg).length ((exec V ks l).pad msg)) l).flatMap (beBytes (V.w / 8)) := by
  subst hl
  exact sha2_iff hV hk iv msg digest hm

theorem truncatedIv_iff (iv : Registers 64) : TruncatedIv iv ↔ iv = registers 64 sha512_256P.iv := by
  have hname : 8 * ("SHA-512/256".toUTF8.toList : Bytes).length < 2 ^ (2 * words64.w) := by decide +kernel
  have hrun := sha2_run good64 table64 (registers 64 ivGeneration) natsGen "SHA-512/256".toUTF8.toList hname
  rw [show ((exec words64 sha512_256P.rounds ivGeneration).blocks
      (Sha2.chunks (2 * words64.w)
        ((exec words64 sha512_256P.rounds ivGeneration).pad "SHA-512/256".toUTF8.toList).length
        ((exec words64 sha512_256P.rounds ivGeneration).pad "SHA-512/256".toUTF8.toList))
      ivGeneration).flatMap (beBytes (words64.w / 8)) = sha512_256P.iv.flatMap (beBytes 8) by decide +kernel] at hrun
  have hwrites : ∀ (words : List (BitVec 64)) (bs : Bytes),
      Writes big bs words ↔ bs = words.flatMap fun x => beBytes 8 x.toNat := by
    refine writes_iff rfl (fun x => beBytes_length _ _) (fun bs => by rw [big_eq]; exact beVal_lt bs) (fun x hx => ?_) ?_
    · rw [big_eq, beVal_beBytes]
      exact hx
    · intro xs ys hl h
      rw [big_eq, big_eq] at h
      exact read_inj xs ys hl h
  have hbytes : Writes big (sha512_256P.iv.flatMap (beBytes 8)) (registers 64 sha512_256P.iv).words := by
    rw [hwrites]
    decide +kernel
  have hgen : ∀ i < 8, (registers 64 ivGeneration).words.getD i 0 =
      (registers 64 Bip32.sha512P.iv).words.getD i 0 ^^^ 0xa5a5a5a5a5a5a5a5#64 := by decide +kernel
  constructor
  · rintro ⟨iv₀, iv₁, digest, h1, h2, h3, h4⟩
    have e0 := rootsIv_unique h1 roots512
    subst e0
    have e1 : iv₁ = registers 64 ivGeneration := words_inj fun i hi => by rw [h2 i hi, hgen i hi]
    subst e1
    have e2 := (hrun digest).1 h3
    subst e2
    apply words_inj
    intro i hi
    rw [← h4.2 i (by simpa [Registers.words] using hi), ← hbytes.2 i (by simpa [Registers.words] using hi)]
  · rintro rfl
    exact ⟨_, _, _, roots512, hgen, (hrun _).2 rfl, hbytes⟩

/-! ## The theorems -/

/-- **C106** SHA-256 of every message the standard allows. -/
theorem C106_sha256 (msg digest : Bytes) (hm : 8 * msg.length < 2 ^ 64) :
    IsSha256 msg digest ↔ digest = (sha256 msg).1 := by
  have h := sha2_run good32 table32 (registers 32 sha256P.iv) nats32 msg hm
  have hl : ∀ d, Sha2From words32 (registers 32 sha256P.iv) msg d → d.length = 32 := by
    rintro d ⟨_, _, _, _, h1, _⟩
    simpa [Registers.words, words32] using h1
  have e : (sha256 msg).1 = (sha256P.blocks (Sha2.chunks 64 (sha256P.pad msg).length (sha256P.pad msg)) sha256P.iv).flatMap
      (beBytes 4) := by
    have hlen := hl _ ((h _).2 rfl)
    unfold sha256 Sha2.digest
    simp only []
    have ht := List.take_of_length_le (le_of_eq hlen)
    rw [fit_val]
    · exact ht
    · exact (congrArg List.length ht).trans hlen
  constructor
  · rintro ⟨iv, h1, h2⟩
    have e0 := rootsIv_unique h1 roots32
    subst e0
    rw [e]
    exact (h _).1 h2
  · intro hd
    rw [e] at hd
    exact ⟨_, roots32, (h _).2 hd⟩

/-- The digest of "abc" (FIPS 180-4), and no other. -/
example : IsSha256 "abc".toUTF8.toList (beBytes 32 0xba7816bf8f01cfea414140de5dae2223b00361a396177a9cb410ff61f20015ad) ∧
    ¬ IsSha256 "abc".toUTF8.toList (beBytes 32 0xba7816bf8f01cfea414140de5dae2223b00361a396177a9cb410ff61f20015ae) :=
  ⟨(C106_sha256 _ _ (by decide +kernel)).2 (by decide +kernel),
    fun h => absurd ((C106_sha256 _ _ (by decide +kernel)).1 h) (by decide +kernel)⟩

/-- **C106** SHA-512 of every message the standard allows. -/
theorem C106_sha512 (msg digest : Bytes) (hm : 8 * msg.length < 2 ^ 128) :
    IsSha512 msg digest ↔ digest = Bip32.sha512 msg := by
  have h := sha2_run good64 table64 (registers 64 Bip32.sha512P.iv) nats512 msg hm
  constructor
  · rintro ⟨iv, h1, h2⟩
    have e0 := rootsIv_unique h1 roots512
    subst e0
    exact (h _).1 h2
  · intro hd
    exact ⟨_, roots512, (h _).2 hd⟩

/-- The digest of "abc". -/
example : IsSha512 "abc".toUTF8.toList (beBytes 64 0xddaf35a193617abacc417349ae20413112e6fa4e89a97ea20a9eeee64b55d39a2192992a274fc1a836ba3c23a3feebbd454d4423643ce80e2a9ac94fa54ca49f) :=
  (C106_sha512 _ _ (by decide +kernel)).2 (by decide +kernel)

/-- **C106** SHA-512/256 of every message the standard allows. -/
theorem C106_sha512_256 (msg digest : Bytes) (hm : 8 * msg.length < 2 ^ 128) :
    IsSha512_256 msg digest ↔ digest = (sha512_256 msg).1 := by
  have h := sha2_run good64 table64 (registers 64 sha512_256P.iv) nats256 msg hm
  have e : ∀ full, Sha2From words64 (registers 64 sha512_256P.iv) msg full → (sha512_256 msg).1 = full.take 32 := by
    intro full hf
    have hlen : full.length = 64 := by
      obtain ⟨_, _, _, _, h1, _⟩ := hf
      simpa [Registers.words, words64] using h1
    rw [h] at hf
    unfold sha512_256 Sha2.digest
    simp only []
    subst hf
    rw [fit_val]
    · rfl
    · exact (List.length_take).trans ((congrArg (min 32) hlen).trans rfl)
  constructor
  · rintro ⟨iv, full, h1, h2, h3⟩
    rw [truncatedIv_iff] at h1
    subst h1
    rw [h3, e full h2]
  · intro hd
    exact ⟨_, _, (truncatedIv_iff _).2 rfl, (h _).2 rfl, by rw [hd, e _ ((h _).2 rfl)]⟩

/-- The digest of "abc". -/
example : IsSha512_256 "abc".toUTF8.toList (beBytes 32 0x53048e2681941ef99b2e29b76b4c7dabe4c2d0c634fc6d46e0e2f13107e7af23) :=
  (C106_sha512_256 _ _ (by decide +kernel)).2 (by decide +kernel)

/-- **C106** RIPEMD-160 of every message for which it is defined. -/
theorem C106_ripemd160 (msg digest : Bytes) (hm : 8 * msg.length < 2 ^ 64) :
    IsRipemd160 msg digest ↔ digest = (ripemd160 msg).1 := rmd_iff msg digest hm

/-- The digest of "abc". -/
example : IsRipemd160 "abc".toUTF8.toList (beBytes 20 0x8eb208f7e05d987a9b044a8e98c6b087f15a0bfc) :=
  (C106_ripemd160 _ _ (by decide +kernel)).2 (by decide +kernel)

section
attribute [local instance] realHashes

/-- **C106** The hashes of the crate: `Sha256Hash::from_slice`, `DSha256Hash::from_slice`, `Sha512_256Hash::from_slice`
(which is also `SignatureHash::from_slice`) and `Hash160::from_slice`. -/
theorem C106_hashes (bs : Bytes) (hm : 8 * bs.length < 2 ^ 64) :
    (∀ d, IsSha256 bs d ↔ d = (sha256Hash bs).1) ∧
    (∀ d, (∃ mid, IsSha256 bs mid ∧ IsSha256 mid d) ↔ d = (dsha256Hash bs).1) ∧
    (∀ d, IsSha512_256 bs d ↔ d = (sha512_256Hash bs).1) ∧
    (∀ d, IsSha512_256 bs d ↔ d = (signatureHash bs).1) ∧
    (∀ d, IsHash160 bs d ↔ d = (hash160 bs).1) := by
  have hmid : ∀ d, IsSha256 (sha256 bs).1 d ↔ d = (sha256 (sha256 bs).1).1 := fun d =>
    C106_sha256 _ _ (by rw [(sha256 bs).2]; decide)
  have hmid' : ∀ d, IsRipemd160 (sha256 bs).1 d ↔ d = (ripemd160 (sha256 bs).1).1 := fun d =>
    C106_ripemd160 _ _ (by rw [(sha256 bs).2]; decide)
  have h128 : 8 * bs.length < 2 ^ 128 := lt_trans hm (by decide)
  refine ⟨fun d => C106_sha256 _ _ hm, fun d => ?_, fun d => C106_sha512_256 _ _ h128, fun d => C106_sha512_256 _ _ h128,
    fun d => ?_⟩
  · simp only [C106_sha256 bs _ hm, exists_eq_left, hmid]
    rfl
  · simp only [IsHash160, C106_sha256 bs _ hm, exists_eq_left, hmid']
    rfl

theorem checksum32_val (h : Arr 32) : (checksum32 h).1 = h.1.take 4 := rfl

/-- **C106** The check sum of `c32check` and Base58Check. -/
theorem C106_checksum (bs : Bytes) (hm : 8 * bs.length < 2 ^ 64) (c : Bytes) :
    (∃ once twice, IsSha256 bs once ∧ IsSha256 once twice ∧ c = twice.take 4) ↔ c = (checksum32 (dsha256Hash bs)).1 := by
  have hd := (C106_hashes bs hm).2.1
  generalize dsha256Hash bs = dd at hd
  rw [checksum32_val]
  constructor
  · rintro ⟨once, twice, h1, h2, h3⟩
    rw [h3, (hd twice).1 ⟨once, h1, h2⟩]
  · intro h
    obtain ⟨mid, h1, h2⟩ := (hd dd.1).2 rfl
    exact ⟨mid, dd.1, h1, h2, h⟩

/-- The checksum of no bytes at all: 5df6e0e2. -/
example : ∃ once twice, IsSha256 [] once ∧ IsSha256 once twice ∧ ([0x5d, 0xf6, 0xe0, 0xe2] : Bytes) = twice.take 4 :=
  (C106_checksum [] (by decide) _).2 (by decide +kernel)

/-- **C106** The text of the address of a key. -/
theorem C106_address (version : UInt8) (key : Bytes) (hm : 8 * key.length < 2 ^ 64) (s : Str) :
    Spec.IsAddressOf version key s ↔ C32.c32Address (C32.hashP2pkh key).1 version = .ok s := by
  have hh := (C106_hashes key hm).2.2.2.2
  have hc := fun c => C106_checksum (version :: (hash160 key).1) (by rw [List.length_cons, (hash160 key).2]; decide) c
  have hrun : ∀ letter, (version, letter) ∈ [((22 : UInt8), 'P'), (20, 'M'), (26, 'T'), (21, 'N')] →
      C32.c32Address (C32.hashP2pkh key).1 version =
        .ok ('S' :: letter :: Spec.c32Text ((hash160 key).1 ++ (checksum32 (dsha256Hash (version :: (hash160 key).1))).1)) := by
    intro letter hl
    simp only [List.mem_cons, List.not_mem_nil, or_false, Prod.mk.injEq] at hl
    have hv : version < 32 ∧ Spec.c32Char version.toNat = letter ∧ version ∈ ([22, 26, 20, 21] : List UInt8) := by
      rcases hl with ⟨rfl, rfl⟩ | ⟨rfl, rfl⟩ | ⟨rfl, rfl⟩ | ⟨rfl, rfl⟩ <;> decide +kernel
    unfold C32.c32Address
    rw [if_neg (by rw [not_not]; exact hv.2.2), C32.C08_c32check_shape _ _ hv.1, C32.C04_c32_encode_value, hv.2.1,
      C32.checksum32_eq]
    simp only [Outcome.ok_bind, Outcome.pure_def, Spec.c32Text, C32.hashP2pkh]
  constructor
  · rintro ⟨letter, hash, once, twice, hl, h1, h2, h3, rfl⟩
    rw [hh] at h1
    rw [h1] at h2 ⊢
    rw [hrun letter hl, (hc (twice.take 4)).1 ⟨once, twice, h2, h3, rfl⟩]
  · intro h
    obtain ⟨letter, e, -, hl, -⟩ := C32.C10_c32_address_shape _ _ _ h
    rw [hrun letter hl] at h
    obtain ⟨once, twice, h2, h3, h4⟩ := (hc (checksum32 (dsha256Hash (version :: (hash160 key).1))).1).2 (Eq.refl _)
    refine ⟨letter, (hash160 key).1, once, twice, hl, (hh (hash160 key).1).2 (Eq.refl _), h2, h3, ?_⟩
    rw [← h4]
    exact (Outcome.ok.inj h).symm

example := C106_hashes "abc".toUTF8.toList (by decide +kernel)

end

end Stacks.Concrete
