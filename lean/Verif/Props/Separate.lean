import Verif.Spec.Separate
import Verif.Props.Bip32

/-! # C130: accounts are separate, and so are wallets -/

namespace Stacks
open Stacks.Spec Stacks.Wallet Stacks.Concrete WeierstrassCurve
open Stacks.Concrete.Ecdsa (G)

attribute [local instance] Ecdsa.realSecp
local instance separateLawful : Secp.Lawful := Ecdsa.realLawful

theorem hmac_of_iff {key msg mac : Bytes} (h : IsHmac key msg mac) (hk : key.length ≤ 1000) (hm : msg.length ≤ 1000) :
    mac.length = 64 := by
  rw [(hmac_iff key msg mac (.of_le hk) (.of_le hm)).1 h]
  exact hmac_length _ _

theorem mac_halves {mac c : Bytes} {left : Nat} (hl : mac.length = 64) (hc : c.length = 32)
    (h : beVal mac = left * 2 ^ 256 + beVal c) : mac.take 32 = beBytes 32 left ∧ mac.drop 32 = c := by
  obtain ⟨h1, h2⟩ := half_split hc h
  have e : beVal mac = beVal (mac.take 32) * 256 ^ 32 + beVal (mac.drop 32) := by
    conv_lhs => rw [← List.take_append_drop 32 mac]
    rw [beVal_append, List.length_drop, hl]
  have e' : (256 : Nat) ^ 32 = 2 ^ 256 := by decide
  rw [e'] at e
  have hd : (mac.drop 32).length = 32 := by rw [List.length_drop, hl]
  have ht : (mac.take 32).length = 32 := by rw [List.length_take, hl]; rfl
  obtain ⟨h3, h4⟩ := half_split hd e
  constructor
  · rw [← beBytes_beVal' ht, ← h3, h1]
  · rw [← h4, h2]

theorem compressed_length {P : Spec.Ecdsa.curve.Point} {bytes : Bytes} (h : IsCompressed P bytes) : bytes.length = 33 := by
  obtain ⟨_, _, _, _, rfl⟩ := h
  simp

theorem childData_length {x : ExtKey} {i : Nat} {data : Bytes} (h : ChildData G x i data) : data.length = 37 := by
  obtain ⟨key, h, rfl⟩ := h
  split at h
  · simp [compressed_length h]
  · simp [h]

theorem childData_index {x x' : ExtKey} {i j : Nat} {data : Bytes} (hi : i < 2 ^ 32) (hj : j < 2 ^ 32)
    (h : ChildData G x i data) (h' : ChildData G x' j data) : i = j := by
  obtain ⟨key, _, rfl⟩ := h
  obtain ⟨key', _, e⟩ := h'
  exact beBytes_inj (n := 4) (by simpa using hi) (by simpa using hj) (List.append_inj' e (by simp)).2

theorem child_mac {x y : ExtKey} {i : Nat} (hc : x.chain.length = 32) (h : IsChild G x i y) :
    ∃ data mac, ChildData G x i data ∧ IsHmac x.chain data mac ∧ mac.drop 32 = y.chain ∧
      ∃ left, mac.take 32 = beBytes 32 left ∧ left < Spec.Ecdsa.order ∧ y.key ≡ x.key + left [MOD Spec.Ecdsa.order] := by
  obtain ⟨data, mac, left, hd, hm, h0, h1, h2, h3, h4, h5, h6⟩ := h
  have hl := hmac_of_iff hm (by rw [hc]; decide) (by rw [childData_length hd]; decide)
  obtain ⟨e1, e2⟩ := mac_halves hl h2 h3
  exact ⟨data, mac, hd, hm, e2, left, e1, h1, h6⟩

/-- **C130** Two children of a key, at different indices, with the same private key: then HMAC-SHA512 gives the same left
half for two different messages. -/
theorem C130_children (x y z : ExtKey) (i j : Nat) (hi : i < 2 ^ 32) (hj : j < 2 ^ 32) (hij : i ≠ j)
    (hc : x.chain.length = 32) (hy : IsChild G x i y) (hz : IsChild G x j z) (he : y.key = z.key) :
    ∃ message message', ChildData G x i message ∧ ChildData G x j message' ∧
      LeftHalvesMeet x.chain message x.chain message' := by
  obtain ⟨d, m, h1, h2, -, l, h3, h4, h5⟩ := child_mac hc hy
  obtain ⟨d', m', g1, g2, -, l', g3, g4, g5⟩ := child_mac hc hz
  refine ⟨d, d', h1, g1, .inr ?_, rfl, by rw [hc]; decide, m, m', h2, g2, ?_⟩
  · rintro rfl
    exact hij (childData_index hi hj h1 g1)
  · rw [he] at h5
    have e : x.key + l ≡ x.key + l' [MOD Spec.Ecdsa.order] := h5.symm.trans g5
    have e2 := Nat.ModEq.add_left_cancel' x.key e
    rw [h3, g3, Nat.ModEq.eq_of_lt_of_lt e2 h4 g4]

/-- The account that is returned, as the child of the wallet's key. -/
theorem account_child (phrases : Bip32.Phrases) : letI : Bip := Bip32.realBip phrases
    ∀ [Hashes] (s : Str) (m : phrases.Mnemonic), phrases.parse s = .ok m → (phrases.text m).bytes.length < 2 ^ 124 →
    ∀ w, StacksWallet.fromSecretKey s = .ok w → ∀ (history : List UInt32) (i : UInt32) (a : StacksAccount),
      ((afterCalls w (history.map .get)).getAccount i).1 = .ok a →
      ∃ (y : ExtKey) (d : Ecdsa.SK), IsChild G (ext w.ext) i.toNat y ∧ a.privateKey = .ok d ∧ d.1 = y.key ∧
        (ext w.ext).chain.length = 32 := by
  let _ : Bip := Bip32.realBip phrases
  intro _ s m hm hp w hw history i a ha
  obtain ⟨h1, h2⟩ := C104_account phrases s m hm hp w hw history i
  by_cases hex : ∃ seed y, IsSeed (phrases.text m) seed ∧ AtPath G seed (stacksPath ++ [i.toNat]) y
  · obtain ⟨seed, y, hs, hy⟩ := hex
    obtain ⟨a', d, q, bytes, g1, -, g3, g4, -⟩ := h1 seed y hs hy
    obtain rfl := Outcome.ok.inj (g1.symm.trans ha)
    obtain ⟨seed', hs', hw'⟩ := (C104_wallet phrases s m hm hp (ext w.ext)).1 ⟨w, hw, rfl⟩
    obtain rfl : seed' = seed := by rw [(seed_iff _ hp _).1 hs', (seed_iff _ hp _).1 hs]
    obtain ⟨r, hr, hd⟩ := hy
    obtain ⟨z, hz, hc⟩ := descends_append.1 hd
    have hstack : stacksPath = List.map UInt32.toNat [2 ^ 31 + 44, 2 ^ 31 + 5757, 2 ^ 31, 0] := by decide
    have e : ext w.ext = z := C104_unique seed' (by rw [seed_length hs']; decide) _ (by simp) _ _
      (hstack ▸ hw') (hstack ▸ ⟨r, hr, hz⟩)
    subst e
    exact ⟨y, d, hc, g3, g4, by simp [ext]⟩
  · rw [h2 hex] at ha; cases ha

/-- **C130** Two accounts of a wallet, at different indices and whatever was asked for before, have the same private key
only if HMAC-SHA512 gives the same left half for two messages under the wallet's chain code; and the same address
only in this case or if two public keys have the same hash. -/
theorem C130_accounts (phrases : Bip32.Phrases) : letI : Bip := Bip32.realBip phrases
    ∀ [Hashes] (s : Str) (m : phrases.Mnemonic), phrases.parse s = .ok m → (phrases.text m).bytes.length < 2 ^ 124 →
    ∀ w, StacksWallet.fromSecretKey s = .ok w → ∀ (history history' : List UInt32) (i j : UInt32), i ≠ j →
    ∀ a b : StacksAccount, ((afterCalls w (history.map .get)).getAccount i).1 = .ok a →
      ((afterCalls w (history'.map .get)).getAccount j).1 = .ok b →
      (a.privateKey = b.privateKey →
        ∃ message message', LeftHalvesMeet (ext w.ext).chain message (ext w.ext).chain message') ∧
      ∀ v v', a.getAddress v = b.getAddress v' → (∃ message message', LeftHalvesMeet (ext w.ext).chain message (ext w.ext).chain message') ∨
        ∃ bytes bytes', KeyHashesMeet bytes bytes' := by
  let _ : Bip := Bip32.realBip phrases
  let _ : Bip.Lawful := Bip32.realBipLawful phrases
  intro _ s m hm hp w hw history history' i j hij a b ha hb
  obtain ⟨y, d, h1, h2, h3, hc⟩ := account_child phrases s m hm hp w hw history i a ha
  obtain ⟨z, d', g1, g2, g3, -⟩ := account_child phrases s m hm hp w hw history' j b hb
  have key : d = d' → ∃ message message', LeftHalvesMeet (ext w.ext).chain message (ext w.ext).chain message' := by
    rintro rfl
    obtain ⟨x, x', _, _, h⟩ := C130_children (ext w.ext) y z i.toNat j.toNat (UInt32.toNat_lt i) (UInt32.toNat_lt j)
      (fun e => hij (UInt32.toNat_inj.1 e)) hc h1 g1 (h3.symm.trans g3)
    exact ⟨x, x', h⟩
  refine ⟨fun he => key (Outcome.ok.inj (h2.symm.trans (he.trans g2))), fun v v' he => ?_⟩
  have hh := ((Wallet.C60_addresses_differ a b v v').1 he).2
  by_cases hbytes : (Bip.publicBytes a.ext).1 = (Bip.publicBytes b.ext).1
  · left
    obtain ⟨k, k1, k2⟩ := Wallet.C61_private_key_exists a
    obtain ⟨k', k1', k2'⟩ := Wallet.C61_private_key_exists b
    obtain rfl := Outcome.ok.inj (k1.symm.trans h2)
    obtain rfl := Outcome.ok.inj (k1'.symm.trans g2)
    have hq : a.publicKey = b.publicKey := by
      unfold StacksAccount.publicKey; rw [hbytes]
    have hq' : Ecdsa.pub k = Ecdsa.pub k' := Outcome.ok.inj (k2.symm.trans (hq.trans k2'))
    exact key ((Tx.C82_key_pairs (Ecdsa.pub k')).unique hq' rfl)
  · exact .inr ⟨_, _, hbytes, (Bip.publicBytes a.ext).2, (Bip.publicBytes b.ext).2, hh⟩

theorem childData_key {x x' : ExtKey} {i : Nat} {data : Bytes} (hx : 0 < x.key ∧ x.key < Spec.Ecdsa.order)
    (hx' : 0 < x'.key ∧ x'.key < Spec.Ecdsa.order) (h : ChildData G x i data) (h' : ChildData G x' i data) :
    x.key = x'.key := by
  obtain ⟨key, h, rfl⟩ := h
  obtain ⟨key', h', e⟩ := h'
  obtain ⟨rfl, -⟩ := List.append_inj' e (by simp)
  by_cases hi : i < 2 ^ 31
  · rw [if_pos hi] at h h'
    have e1 := (compressed_pub ⟨x.key, hx⟩ key).1 h
    have e2 := (compressed_pub ⟨x'.key, hx'⟩ key).1 h'
    have e3 : Ecdsa.pub ⟨x.key, hx⟩ = Ecdsa.pub ⟨x'.key, hx'⟩ :=
      Secp.Lawful.serialize_injective _ _ (Subtype.ext (e1.symm.trans e2))
    exact congrArg Subtype.val ((Tx.C82_key_pairs _).unique e3 rfl)
  · rw [if_neg hi] at h h'
    have := (List.cons.inj (h.symm.trans h')).2
    exact beBytes_inj (lt_trans hx.2 (by decide)) (lt_trans hx'.2 (by decide)) this

/-- A usable extended key. -/
def Usable (x : ExtKey) : Prop := (0 < x.key ∧ x.key < Spec.Ecdsa.order) ∧ x.chain.length = 32

theorem descends_meet {x x' y : ExtKey} {path : List Nat} (hx : Usable x) (hx' : Usable x')
    (h : Descends G x path y) (h' : Descends G x' path y) :
    x = x' ∨ ∃ k m k' m', RightHalvesMeet k m k' m' := by
  induction path generalizing x x' with
  | nil => cases h; cases h'; exact .inl rfl
  | cons i path ih =>
    cases h with
    | child _ u _ _ _ hc hd =>
      cases h' with
      | child _ u' _ _ _ hc' hd' =>
        have hu : Usable u := by
          obtain ⟨_, _, _, _, _, _, _, h1, _, h2, h3, _⟩ := hc
          exact ⟨⟨h2, h3⟩, h1⟩
        have hu' : Usable u' := by
          obtain ⟨_, _, _, _, _, _, _, h1, _, h2, h3, _⟩ := hc'
          exact ⟨⟨h2, h3⟩, h1⟩
        refine (ih hu hu' hd hd').elim (fun e => ?_) .inr
        subst e
        obtain ⟨d, m, h1, h2, h3, _⟩ := child_mac hx.2 hc
        obtain ⟨d', m', g1, g2, g3, _⟩ := child_mac hx'.2 hc'
        by_cases hs : x.chain = x'.chain ∧ d = d'
        · obtain ⟨e1, rfl⟩ := hs
          left
          obtain ⟨kx, cx⟩ := x
          obtain ⟨kx', cx'⟩ := x'
          have := childData_key hx.1 hx'.1 h1 g1
          dsimp only at this e1
          rw [this, e1]
        · refine .inr ⟨x.chain, d, x'.chain, d', ?_, by rw [hx.2, hx'.2], by rw [hx.2]; decide, m, m', h2, g2, h3.trans g3.symm⟩
          by_contra hn
          simp only [not_or, not_not] at hn
          exact hs hn

/-- **C130** Two different seeds have the same key and chain code at a path only if HMAC-SHA512 gives the same right half
for two different inputs. -/
theorem C130_seeds (seed seed' : Bytes) (hs : seed.length ≤ 64) (hs' : seed'.length ≤ 64) (hne : seed ≠ seed')
    (path : List Nat) (y : ExtKey) (h : AtPath G seed path y) (h' : AtPath G seed' path y) :
    ∃ key message key' message', RightHalvesMeet key message key' message' := by
  obtain ⟨r, h2, h3⟩ := h
  obtain ⟨r', g2, g3⟩ := h'
  refine (descends_meet ⟨⟨h2.1, h2.2.1⟩, h2.2.2.1⟩ ⟨⟨g2.1, g2.2.1⟩, g2.2.2.1⟩ h3 g3).elim (fun e => ?_) id
  subst e
  obtain ⟨_, _, hc, mac, k1, k2⟩ := h2
  obtain ⟨_, _, _, mac', l1, l2⟩ := g2
  have hl := hmac_of_iff k1 (by decide +kernel) (by omega)
  have hl' := hmac_of_iff l1 (by decide +kernel) (by omega)
  exact ⟨_, seed, _, seed', .inr hne, rfl, by decide +kernel, mac, mac', k1, l1,
    (mac_halves hl hc k2).2.trans (mac_halves hl' hc l2).2.symm⟩

/-- **C130** Wallets of two different phrases have the same key and chain code only if the phrases have the same seed
or HMAC-SHA512 gives the same right half for two different inputs. -/
theorem C130_wallets (phrases : Bip32.Phrases) : letI : Bip := Bip32.realBip phrases
    ∀ (s s' : Str) (m m' : phrases.Mnemonic), phrases.parse s = .ok m → phrases.parse s' = .ok m' →
    (phrases.text m).bytes.length < 2 ^ 124 → (phrases.text m').bytes.length < 2 ^ 124 →
    phrases.text m ≠ phrases.text m' → ∀ w w', StacksWallet.fromSecretKey s = .ok w →
    StacksWallet.fromSecretKey s' = .ok w' → ext w.ext = ext w'.ext →
      SeedsMeet (phrases.text m) (phrases.text m') ∨ ∃ k x k' x', RightHalvesMeet k x k' x' := by
  let _ : Bip := Bip32.realBip phrases
  intro s s' m m' hm hm' hp hp' hne w w' hw hw' he
  obtain ⟨seed, h1, h2⟩ := (C104_wallet phrases s m hm hp (ext w.ext)).1 ⟨w, hw, rfl⟩
  obtain ⟨seed', g1, g2⟩ := (C104_wallet phrases s' m' hm' hp' (ext w'.ext)).1 ⟨w', hw', rfl⟩
  rw [← he] at g2
  by_cases hs : seed = seed'
  · subst hs; exact .inl ⟨hne, seed, h1, g1⟩
  · exact .inr (C130_seeds seed seed' (seed_length h1).le (seed_length g1).le hs _ _ h2 g2)

/-- **C130** So texts with different words make different wallets, up to these collisions. -/
theorem C130_words [Hashes] (normal : Str → Str) {list : List Str} (hl : WordList list) :
    letI : Bip := Bip32.realBip (Bip32.bip39Phrases normal list)
    ∀ (s s' : Str) (ws ws' : List Str), Spaced (normal s) ws → Phrase list ws → Spaced (normal s') ws' →
    Phrase list ws' → (Str.bytes (List.intercalate [' '] ws)).length < 2 ^ 124 → (Str.bytes (List.intercalate [' '] ws')).length < 2 ^ 124 →
    ws ≠ ws' → ∀ w w', StacksWallet.fromSecretKey s = .ok w → StacksWallet.fromSecretKey s' = .ok w' →
    ext w.ext = ext w'.ext → SeedsMeet (List.intercalate [' '] ws) (List.intercalate [' '] ws') ∨
      ∃ key message key' message', RightHalvesMeet key message key' message' := by
  let _ : Bip := Bip32.realBip (Bip32.bip39Phrases normal list)
  intro s s' ws ws' h1 h2 g1 g2 hp hp' hne w w' hw hw' he
  obtain ⟨m, h3, h4⟩ := (C102_accepted normal hl s ws).2 ⟨h1, h2⟩
  obtain ⟨m', g3, g4⟩ := (C102_accepted normal hl s' ws').2 ⟨g1, g2⟩
  have := C130_wallets (Bip32.bip39Phrases normal list) s s' m m' h3 g3
  simp only [h4, g4, unwords_eq] at this
  refine this hp hp' (fun e => hne ?_) w w' hw hw' he
  rw [← unwords_eq, ← unwords_eq] at e
  have hw1 : ∀ v ∈ ws, IsWord v := fun v hv => hl.word v (h2.elim fun _ h => h.known v hv)
  have hw2 : ∀ v ∈ ws', IsWord v := fun v hv => hl.word v (g2.elim fun _ h => h.known v hv)
  rw [← (C102_words _ _).2 (Mnemonic.spaced_unwords hw1), ← (C102_words _ _).2 (Mnemonic.spaced_unwords hw2), e]

/-- The key at a path, as computed. -/
theorem atPath_of (seed : Bytes) (hs : seed.length ≤ 64) (path : List UInt32) (hp : path.length ≤ 255)
    (h : (match Bip32.deriveFromPath seed path with | .ok _ => true | .error _ => false) = true) :
    ∃ y, AtPath G seed (path.map UInt32.toNat) y := by
  cases hx : Bip32.deriveFromPath seed path with
  | ok x => exact ⟨_, (atPath_iff _ (.of_le (by omega)) path hp _).1 ⟨x, hx, rfl⟩⟩
  | error e => rw [hx] at h; cases h

/-- Two children of one key: a hardened and another. -/
example : ∃ x y z, x.chain.length = 32 ∧ IsChild G x 7 y ∧ IsChild G x (2 ^ 31) z ∧
    (y.key = z.key → ∃ message message', LeftHalvesMeet x.chain message x.chain message') := by
  obtain ⟨y, r, h1, h2⟩ := atPath_of [1, 2, 3] (by decide) [7] (by decide) (by decide +kernel)
  obtain ⟨z, r', g1, g2⟩ := atPath_of [1, 2, 3] (by decide) [2 ^ 31] (by decide) (by decide +kernel)
  obtain rfl : r = r' := C104_unique [1, 2, 3] (by decide) [] (by decide) r r' ⟨r, h1, .here r⟩ ⟨r', g1, .here r'⟩
  obtain ⟨_, a, hy⟩ := (descends_append (path := [])).1 h2
  obtain ⟨_, b, hz⟩ := (descends_append (path := [])).1 g2
  cases a; cases b
  refine ⟨r, y, z, h1.2.2.1, hy, hz, fun he => ?_⟩
  obtain ⟨m, m', _, _, h⟩ := C130_children r y z _ _ (by decide) (by decide) (by decide) h1.2.2.1 hy hz he
  exact ⟨m, m', h⟩

/-- Two seeds with a key at the path of a wallet each. -/
example : ∃ y z, AtPath G [1, 2, 3] stacksPath y ∧ AtPath G [1, 2, 4] stacksPath z ∧
    (y = z → ∃ key message key' message', RightHalvesMeet key message key' message') := by
  obtain ⟨y, h⟩ := atPath_of [1, 2, 3] (by decide) [2 ^ 31 + 44, 2 ^ 31 + 5757, 2 ^ 31, 0] (by decide) (by decide +kernel)
  obtain ⟨z, g⟩ := atPath_of [1, 2, 4] (by decide) [2 ^ 31 + 44, 2 ^ 31 + 5757, 2 ^ 31, 0] (by decide) (by decide +kernel)
  have e : stacksPath = List.map UInt32.toNat [2 ^ 31 + 44, 2 ^ 31 + 5757, 2 ^ 31, 0] := by decide
  rw [← e] at h g
  exact ⟨y, z, h, g, fun he => C130_seeds _ _ (by decide) (by decide) (by decide) _ y h (he ▸ g)⟩

end Stacks
