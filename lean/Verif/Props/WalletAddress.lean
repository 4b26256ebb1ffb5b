import Verif.Props.Bip32

/-! # C106: from a phrase to the text of an address, by the standards alone -/

namespace Stacks
open Stacks.Spec Stacks.Wallet Stacks.Concrete WeierstrassCurve
open Stacks.Concrete.Ecdsa (G)

attribute [local instance] Ecdsa.realSecp realHashes

/-- **C106** The addresses of an account of a wallet. Whatever accounts were asked for before, the account at an index
has one address in each version, and it is the one that BIP 39, BIP 32, secp256k1, SHA-2 and RIPEMD-160 give: the address of
the public key at 44', 5757', 0', 0, index from the seed of the phrase. -/
theorem C106_wallet_address (phrases : Bip32.Phrases) : letI : Bip := Bip32.realBip phrases
    ∀ (s : Str) (m : phrases.Mnemonic), phrases.parse s = .ok m → (phrases.text m).bytes.length < 2 ^ 124 →
    ∀ w, StacksWallet.fromSecretKey s = .ok w → ∀ (history : List UInt32) (i : UInt32) (v : C32.Version),
    ∀ seed y bytes, IsSeed (phrases.text m) seed → AtPath G seed (stacksPath ++ [i.toNat]) y →
      IsCompressed (y.key • G) bytes → ∀ text,
        (((afterCalls w (history.map .get)).getAccount i).1 >>= fun a => a.getAddress v) = .ok text ↔
          IsAddressOf (versionByte v) bytes text := by
  let _ : Bip := Bip32.realBip phrases
  intro s m hm hp w hw history i v seed y bytes hs hy hb text
  obtain ⟨a, d, q, bytes', h1, -, -, h4, h5, h6, h7, h8⟩ := (C104_account phrases s m hm hp w hw history i).1 seed y hs hy
  rw [← h4] at hb h7
  have e := ((compressed_pub d bytes).1 hb).trans ((compressed_pub d bytes').1 h7).symm
  have hl : bytes.length = 33 := by rw [e, ← h6]; exact (Ecdsa.serialize q).2
  rw [h1, Outcome.ok_bind, h8 v, C106_address _ _ (by rw [hl]; decide), ← e]
  have hh : hash160Of bytes = C32.hashP2pkh bytes := by unfold hash160Of C32.hashP2pkh hash160 sha256Hash; rfl
  rw [hh]
  cases C32.c32Address (C32.hashP2pkh bytes).1 (versionByte v) with
  | ok t => exact ⟨fun h => by rw [Outcome.ok.inj h], fun h => by rw [Outcome.ok.inj h]; rfl⟩
  | err e => exact ⟨nofun, nofun⟩
  | panic => exact ⟨nofun, nofun⟩

/-- The address of the generator itself, on the main network. -/
example : IsAddressOf 22 (Ecdsa.serialize (Ecdsa.pub ⟨1, by decide⟩)).1 "SP1THWXQ8368SDN2MJGE4BMDKMCHZ2GSVTS1X0BPM".toList := by
  refine (C106_address 22 _ ?_ _).2 ?_ <;> decide +kernel

end Stacks
