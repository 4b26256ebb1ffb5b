import Verif.Spec.Bip32
import Verif.Props.HashFunctions
import Verif.Props.Mnemonic
import Verif.Props.EcdsaVerify

/-! # C104: the keys of a wallet are those of BIP 32 -/

namespace Stacks
open Stacks.Spec Stacks.Wallet Stacks.Concrete WeierstrassCurve
open Stacks.Concrete.Ecdsa (G)

attribute [local instance] Ecdsa.realSecp

/-- An extended key without its depth. -/
def ext (x : Bip32.XPrv) : ExtKey := ⟨x.key.1, beBytes 32 x.chain⟩

theorem compressed_pub (d : Ecdsa.SK) (bytes : Bytes) :
    IsCompressed (d.1 • G) bytes ↔ bytes = (Ecdsa.serialize (Ecdsa.pub d)).1 := by
  obtain ⟨h1, h2, -⟩ := id (Ecdsa.pub d).2
  have hp := Tx.pub_point d
  have v1 : ZMod.val (n := Spec.Ecdsa.fieldPrime) (((Ecdsa.pub d).1.1 : Nat) : ZMod _) = (Ecdsa.pub d).1.1 := by
    rw [ZMod.val_natCast]; exact Nat.mod_eq_of_lt h1
  have v2 : ZMod.val (n := Spec.Ecdsa.fieldPrime) (((Ecdsa.pub d).1.2 : Nat) : ZMod _) = (Ecdsa.pub d).1.2 := by
    rw [ZMod.val_natCast]; exact Nat.mod_eq_of_lt h2
  constructor
  · rintro ⟨x, y, h, hP, rfl⟩
    rw [hp] at hP
    injection hP with e1 e2
    rw [← e1, ← e2, v1, v2]
    rfl
  · rintro rfl
    refine ⟨_, _, Tx.key_nonsingular _, hp, ?_⟩
    rw [v1, v2]
    rfl

theorem half_split {t a : Nat} {c : Bytes} (hc : c.length = 32) (h : t = a * 2 ^ 256 + beVal c) :
    t / 2 ^ 256 = a ∧ beBytes 32 (t % 2 ^ 256) = c := by
  have hlt := beVal_lt c
  rw [hc] at hlt
  have hlt' : beVal c < 2 ^ 256 := by
    have e : (256 : Nat) ^ 32 = 2 ^ 256 := by decide
    rw [← e]; exact hlt
  have e1 : t / 2 ^ 256 = a := by omega
  have e2 : t % 2 ^ 256 = beVal c := by omega
  exact ⟨e1, by rw [e2]; exact beBytes_beVal' hc⟩

theorem half_join (t : Nat) : t = t / 2 ^ 256 * 2 ^ 256 + beVal (beBytes 32 (t % 2 ^ 256)) := by
  have h : t % 2 ^ 256 < 256 ^ 32 := by
    have e : (256 : Nat) ^ 32 = 2 ^ 256 := by decide
    rw [e]; exact Nat.mod_lt _ (by positivity)
  rw [beVal_beBytes h]
  omega

theorem sha512_blocks_length (bs : List Bytes) (H : List Nat) (h : H.length = 8) :
    (Bip32.sha512P.blocks bs H).length = 8 := by
  induction bs generalizing H with
  | nil => exact h
  | cons b bs ih =>
    rw [Sha2.blocks]
    apply ih
    unfold Sha2.block
    match H, h with
    | [a, b, c, d, e, f, g, i], _ =>
      have hf : ∀ l : List Nat, (Sha2.forceAll l).length = l.length := by
        intro l
        induction l with
        | nil => rfl
        | cons x xs ih =>
          rw [Sha2.forceAll, Ecdsa.force_eq, List.length_cons, List.length_cons, ih]
      have hc : ∀ (ks ws : List Nat) (a b c d e f g h : Nat),
          (Bip32.sha512P.compress ks ws a b c d e f g h).length = 8 := by
        intro ks
        induction ks with
        | nil => intros; rfl
        | cons k ks ih =>
          intro ws
          cases ws with
          | nil => intros; rfl
          | cons w ws =>
            intros
            rw [Sha2.compress]
            simp only [Ecdsa.force_eq]
            exact ih ..
      simp only []
      rw [hf, List.length_zipWith, hc]
      rfl

theorem sha512_length (bs : Bytes) : (Bip32.sha512 bs).length = 64 := by
  unfold Bip32.sha512
  simp only []
  have h := sha512_blocks_length (Sha2.chunks 128 (Bip32.sha512P.pad bs).length (Bip32.sha512P.pad bs)) Bip32.sha512P.iv rfl
  generalize Bip32.sha512P.blocks _ _ = l at h
  match l, h with
  | [a, b, c, d, e, f, g, i], _ => simp

theorem hmac_length (key msg : Bytes) : (Bip32.hmac512 key msg).length = 64 := sha512_length _

/-- A length for which SHA-512 is defined, also after the block of a key. -/
def Short (bs : Bytes) : Prop := bs.length < 2 ^ 124

theorem Short.of_le {bs : Bytes} (h : bs.length ≤ 1000) : Short bs := lt_of_le_of_lt h (by decide)

theorem sha512_of_short {msg : Bytes} (h : msg.length < 128 + 2 ^ 124) (digest : Bytes) :
    Spec.HashFunctions.IsSha512 msg digest ↔ digest = Bip32.sha512 msg :=
  C106_sha512 msg digest (by omega)

theorem hmac_iff (key msg mac : Bytes) (hkey : Short key) (hmsg : Short msg) :
    IsHmac key msg mac ↔ mac = Bip32.hmac512 key msg := by
  have hk : (if 128 < key.length then Bip32.sha512 key else key) = (if key.length ≤ 128 then key else Bip32.sha512 key) := by
    by_cases h : key.length ≤ 128
    · rw [if_pos h, if_neg (by omega)]
    · rw [if_neg h, if_pos (by omega)]
  unfold IsHmac Bip32.hmac512
  simp only [hk]
  have hshort : ∀ short, (if key.length ≤ 128 then short = key else Spec.HashFunctions.IsSha512 key short) ↔
      short = if key.length ≤ 128 then key else Bip32.sha512 key := by
    intro short
    split
    · exact Iff.rfl
    · exact sha512_of_short (by unfold Short at hkey; omega) short
  simp only [hshort]
  have hl : (if key.length ≤ 128 then key else Bip32.sha512 key).length ≤ 128 := by
    split
    · assumption
    · rw [sha512_length]; decide
  generalize (if key.length ≤ 128 then key else Bip32.sha512 key) = k at hl
  have hin : ∀ (block : Bytes) (inner : Bytes), block.length = 128 →
      (Spec.HashFunctions.IsSha512 (block.map (· ^^^ 0x36) ++ msg) inner ↔ inner = Bip32.sha512 (block.map (· ^^^ 0x36) ++ msg)) := by
    intro block inner hb
    exact sha512_of_short (by unfold Short at hmsg; rw [List.length_append, List.length_map, hb]; omega) _
  have hout : ∀ (block inner : Bytes), block.length = 128 → inner.length = 64 →
      (Spec.HashFunctions.IsSha512 (block.map (· ^^^ 0x5c) ++ inner) mac ↔ mac = Bip32.sha512 (block.map (· ^^^ 0x5c) ++ inner)) := by
    intro block inner hb hi
    exact sha512_of_short (by rw [List.length_append, List.length_map, hb, hi]; decide) _
  constructor
  · rintro ⟨short, block, inner, rfl, h1, h2, h3, h4⟩
    rw [hin block inner h1] at h3
    rw [hout block inner h1 (by rw [h3, sha512_length])] at h4
    have e : block = short ++ List.replicate (128 - short.length) 0 := by
      apply List.ext_getElem
      · rw [List.length_append, List.length_replicate, h1]; omega
      · intro i hi hi'
        have := h2 i (by omega)
        rw [List.getD_eq_getElem _ _ hi] at this
        rw [this]
        by_cases hik : i < short.length
        · rw [List.getD_eq_getElem _ _ hik, List.getElem_append_left]
        · rw [List.getD_eq_default _ _ (by omega), List.getElem_append_right (by omega), List.getElem_replicate]
    rw [h4, h3, e]
  · intro hmac
    have hb : (k ++ List.replicate (128 - k.length) 0).length = 128 := by simp; omega
    refine ⟨k, k ++ List.replicate (128 - k.length) 0, _, rfl, hb, fun i hi => ?_, (hin _ _ hb).2 rfl,
      (hout _ _ hb (sha512_length _)).2 hmac⟩
    by_cases hik : i < k.length
    · rw [List.getD_append _ _ _ _ hik]
    · rw [List.getD_append_right _ _ _ _ (by omega), List.getD_eq_default k _ (by omega),
        List.getD_replicate _ (by omega)]

theorem pbkdfLoop_spec (password : Bytes) (code : Nat → Bytes)
    (hc : ∀ k, code (k + 1) = Bip32.hmac512 password (code k)) (hl : ∀ k, (code k).length = 64) :
    ∀ (i j : Nat) (acc : Bytes), acc.length = 64 →
      (Bip32.pbkdfLoop password i (code j) acc).length = 64 ∧
      ∀ x < 64, (Bip32.pbkdfLoop password i (code j) acc).getD x 0 =
        (List.range' (j + 1) i).foldl (fun sum k => sum ^^^ (code k).getD x 0) (acc.getD x 0) := by
  intro i
  induction i with
  | zero => intro j acc ha; exact ⟨ha, fun x _ => rfl⟩
  | succ i ih =>
    intro j acc ha
    rw [Bip32.pbkdfLoop]
    rw [← hc j]
    have hz : (List.zipWith (· ^^^ ·) acc (code (j + 1))).length = 64 := by
      rw [List.length_zipWith, ha, hl]; rfl
    obtain ⟨h1, h2⟩ := ih (j + 1) _ hz
    refine ⟨h1, fun x hx => ?_⟩
    rw [h2 x hx, List.range'_succ, List.foldl_cons]
    congr 1
    rw [List.getD_eq_getElem _ _ (by omega), List.getElem_zipWith, List.getD_eq_getElem acc _ (by omega),
      List.getD_eq_getElem (code (j + 1)) _ (by rw [hl]; omega)]

theorem pbkdf2_iff (password salt : Bytes) (hp : Short password) (hs : salt.length ≤ 900) (c : Nat) (hc : 0 < c) (key : Bytes) :
    IsPbkdf2 password salt c key ↔ key = Bip32.pbkdf2 password salt c := by
  unfold IsPbkdf2
  have first : ∀ mac, IsHmac password (salt ++ [0, 0, 0, 1]) mac ↔ mac = Bip32.hmac512 password (salt ++ [0, 0, 0, 1]) :=
    fun mac => hmac_iff _ _ _ hp (.of_le (by rw [List.length_append]; simp; omega))
  have next : ∀ u mac, u.length = 64 → (IsHmac password u mac ↔ mac = Bip32.hmac512 password u) :=
    fun u mac hu => hmac_iff _ _ _ hp (.of_le (by rw [hu]; decide))
  have main : ∀ code : Nat → Bytes, code 0 = Bip32.hmac512 password (salt ++ [0, 0, 0, 1]) →
      (∀ k, code (k + 1) = Bip32.hmac512 password (code k)) →
      (Bip32.pbkdf2 password salt c).length = 64 ∧ ∀ i < 64, (Bip32.pbkdf2 password salt c).getD i 0 =
        (List.range c).foldl (fun sum k => sum ^^^ (code k).getD i 0) 0 := by
    intro code h0 h1
    have hl : ∀ k, (code k).length = 64 := by
      intro k
      cases k with
      | zero => rw [h0]; exact hmac_length _ _
      | succ k => rw [h1]; exact hmac_length _ _
    unfold Bip32.pbkdf2
    simp only []
    rw [← h0]
    obtain ⟨m, rfl⟩ : ∃ m, c = m + 1 := ⟨c - 1, by omega⟩
    obtain ⟨e1, e2⟩ := pbkdfLoop_spec password code h1 hl m 0 (code 0) (hl 0)
    refine ⟨e1, fun i hi => ?_⟩
    rw [Nat.add_sub_cancel, e2 i hi, List.range_eq_range', List.range'_succ, List.foldl_cons, UInt8.zero_xor]
  constructor
  · rintro ⟨code, h0, h1, h2, h3⟩
    rw [first] at h0
    have hl : ∀ k, (code k).length = 64 ∧ code (k + 1) = Bip32.hmac512 password (code k) := by
      intro k
      induction k with
      | zero =>
        have e0 : (code 0).length = 64 := by rw [h0]; exact hmac_length _ _
        exact ⟨e0, (next _ _ e0).1 (h1 0)⟩
      | succ k ih =>
        have e0 : (code (k + 1)).length = 64 := by rw [ih.2]; exact hmac_length _ _
        exact ⟨e0, (next _ _ e0).1 (h1 (k + 1))⟩
    obtain ⟨e1, e2⟩ := main code h0 fun k => (hl k).2
    apply List.ext_getElem (h2.trans e1.symm)
    intro i hi hi'
    have := (h3 i (by omega)).trans (e2 i (by omega)).symm
    rwa [List.getD_eq_getElem _ _ hi, List.getD_eq_getElem _ _ hi'] at this
  · rintro rfl
    let code : Nat → Bytes := fun k => Nat.rec (Bip32.hmac512 password (salt ++ [0, 0, 0, 1]))
      (fun _ u => Bip32.hmac512 password u) k
    have hl : ∀ k, (code k).length = 64 := by
      intro k
      cases k with
      | zero => exact hmac_length _ _
      | succ k => exact hmac_length _ _
    exact ⟨code, (first _).2 rfl, fun k => (next _ _ (hl k)).2 rfl, main code rfl fun _ => rfl⟩

theorem seed_iff (phrase : Str) (hp : Short phrase.bytes) (seed : Bytes) : IsSeed phrase seed ↔ seed = Bip32.toSeed phrase [] := by
  unfold IsSeed Bip32.toSeed
  rw [pbkdf2_iff _ _ hp (by decide +kernel) _ (by decide), show "mnemonic".toUTF8.toList = Str.bytes ("mnemonic".toList ++ []) by decide +kernel]

theorem seed_length {phrase : Str} {seed : Bytes} (h : IsSeed phrase seed) : seed.length = 64 := by
  obtain ⟨_, _, _, h, _⟩ := h
  exact h

theorem master_iff (seed : Bytes) (hs : Short seed) (y : ExtKey) :
    (∃ x, Bip32.master seed = .ok x ∧ ext x = y) ↔ IsMaster seed y := by
  unfold Bip32.master IsMaster
  have hmac := fun mac => hmac_iff "Bitcoin seed".toUTF8.toList seed mac (.of_le (by decide +kernel)) hs
  simp only [Ecdsa.force_eq, hmac, exists_eq_left]
  generalize beVal (Bip32.hmac512 _ _) = t
  constructor
  · rintro ⟨x, h, rfl⟩
    split at h
    · next hl =>
      rw [← Except.ok.inj h]
      exact ⟨hl.1, hl.2, by simp [ext], half_join t⟩
    · cases h
  · rintro ⟨h0, h1, h2, h3⟩
    obtain ⟨e1, e2⟩ := half_split h2 h3
    have hl : 0 < t / 2 ^ 256 ∧ t / 2 ^ 256 < Ecdsa.n := by rw [e1]; exact ⟨h0, h1⟩
    rw [dif_pos hl]
    refine ⟨_, rfl, ?_⟩
    simp only [ext, e2, e1]

theorem childData_iff (x : Bip32.XPrv) (i : UInt32) (data : Bytes) : ChildData G (ext x) i.toNat data ↔
    data = (if 2 ^ 31 ≤ i.toNat then 0 :: beBytes 32 x.key.1 else (Ecdsa.serialize (Ecdsa.pub x.key)).1) ++
      beBytes 4 i.toNat := by
  unfold ChildData
  have e : (ext x).key = x.key.1 := rfl
  rw [e]
  by_cases h : i.toNat < 2 ^ 31
  · simp only [h, if_true, Nat.not_le.2 h, if_false]
    exact ⟨fun ⟨k, hk, hd⟩ => by rw [hd, (compressed_pub x.key k).1 hk], fun hd => ⟨_, (compressed_pub x.key _).2 rfl, hd⟩⟩
  · simp only [h, if_false, Nat.not_lt.1 h, if_true]
    exact ⟨fun ⟨k, hk, hd⟩ => by rw [hd, hk], fun hd => ⟨_, rfl, hd⟩⟩

theorem child_iff (x : Bip32.XPrv) (hx : x.depth ≠ 255) (i : UInt32) (y : ExtKey) :
    (∃ z, Bip32.deriveChild x i = .ok z ∧ ext z = y) ↔ IsChild G (ext x) i.toNat y := by
  unfold Bip32.deriveChild IsChild
  rw [if_neg hx]
  simp only [Ecdsa.force_eq, childData_iff]
  have hlen : ((if 2 ^ 31 ≤ i.toNat then 0 :: beBytes 32 x.key.1 else (Ecdsa.serialize (Ecdsa.pub x.key)).1) ++
      beBytes 4 i.toNat).length = 37 := by
    rw [List.length_append, beBytes_length]
    split
    · simp
    · rw [(Ecdsa.serialize (Ecdsa.pub x.key)).2]
  generalize hd : (if 2 ^ 31 ≤ i.toNat then 0 :: beBytes 32 x.key.1 else (Ecdsa.serialize (Ecdsa.pub x.key)).1) ++
      beBytes 4 i.toNat = data at hlen
  have ec : (ext x).chain = beBytes 32 x.chain := rfl
  have ek : (ext x).key = x.key.1 := rfl
  rw [ec, ek]
  have hmac := fun mac => hmac_iff (beBytes 32 x.chain) data mac (.of_le (by simp)) (.of_le (by omega))
  generalize ht : beVal (Bip32.hmac512 (beBytes 32 x.chain) data) = t
  constructor
  · rintro ⟨z, h, rfl⟩
    split at h
    · next hl =>
      rw [← Except.ok.inj h]
      refine ⟨data, Bip32.hmac512 (beBytes 32 x.chain) data, t / 2 ^ 256, rfl, (hmac _).2 rfl, hl.1, hl.2.1, by simp [ext], ht.trans (half_join t), hl.2.2.1, hl.2.2.2, ?_⟩
      show (t / 2 ^ 256 + x.key.1) % Ecdsa.n ≡ _ [MOD Ecdsa.n]
      rw [Nat.add_comm]
      exact Nat.mod_modEq _ _
    · cases h
  · rintro ⟨_, mac, l, rfl, hm, h0, h1, h2, h3, h4, h5, h6⟩
    rw [(hmac _).1 hm, ht] at h3
    obtain ⟨e1, e2⟩ := half_split h2 h3
    have ek : (t / 2 ^ 256 + x.key.1) % Ecdsa.n = y.key := by
      rw [e1, Nat.add_comm]
      have h5' : y.key < Ecdsa.n := h5
      have : y.key % Ecdsa.n = (x.key.1 + l) % Ecdsa.n := h6
      rw [← this, Nat.mod_eq_of_lt h5']
    have hl : 0 < t / 2 ^ 256 ∧ t / 2 ^ 256 < Ecdsa.n ∧ 0 < (t / 2 ^ 256 + x.key.1) % Ecdsa.n ∧
        (t / 2 ^ 256 + x.key.1) % Ecdsa.n < Ecdsa.n := by
      rw [ek, e1]; exact ⟨h0, h1, h4, h5⟩
    rw [dif_pos hl]
    refine ⟨_, rfl, ?_⟩
    simp only [ext, e2, ek]

theorem descends_iff (path : List UInt32) (x : Bip32.XPrv) (hx : x.depth.toNat + path.length ≤ 255) (y : ExtKey) :
    (∃ z, Bip32.deriveAll x path = .ok z ∧ ext z = y) ↔ Descends G (ext x) (path.map UInt32.toNat) y := by
  induction path generalizing x with
  | nil =>
    constructor
    · rintro ⟨z, h, rfl⟩
      rw [← Except.ok.inj h]
      exact .here _
    · intro h
      cases h
      exact ⟨x, rfl, rfl⟩
  | cons i is ih =>
    rw [List.length_cons] at hx
    have hd : x.depth ≠ 255 := by rintro h; rw [h] at hx; simp at hx
    have hn : ∀ z, Bip32.deriveChild x i = .ok z → z.depth.toNat + is.length ≤ 255 := by
      intro z hz
      rw [(deriveChild_depth x i).1 z hz, UInt8.toNat_add]
      simp
      omega
    constructor
    · rintro ⟨z, h, hz⟩
      rw [Bip32.deriveAll] at h
      cases hc : Bip32.deriveChild x i with
      | error e => rw [hc] at h; cases h
      | ok w =>
        rw [hc] at h
        exact .child _ (ext w) _ _ _ ((child_iff x hd i _).1 ⟨w, hc, rfl⟩) ((ih w (hn w hc)).1 ⟨z, h, hz⟩)
    · intro h
      cases h with
      | child _ w _ _ _ hw hz =>
        obtain ⟨w', hc, rfl⟩ := (child_iff x hd i _).2 hw
        obtain ⟨z, h1, h2⟩ := (ih w' (hn w' hc)).2 hz
        refine ⟨z, ?_, h2⟩
        rw [Bip32.deriveAll, hc]
        exact h1

theorem atPath_iff (seed : Bytes) (hs : Short seed) (path : List UInt32) (hp : path.length ≤ 255) (y : ExtKey) :
    (∃ z, Bip32.deriveFromPath seed path = .ok z ∧ ext z = y) ↔ AtPath G seed (path.map UInt32.toNat) y := by
  unfold Bip32.deriveFromPath AtPath
  have hm : ∀ x, Bip32.master seed = .ok x → x.depth.toNat + path.length ≤ 255 := by
    intro x hx
    have := (deriveFromPath_depth seed [] (by simp)).1 x (by rw [Bip32.deriveFromPath, hx]; rfl)
    simp at this
    omega
  constructor
  · rintro ⟨z, h, hz⟩
    cases hx : Bip32.master seed with
    | error e => rw [hx] at h; cases h
    | ok x =>
      rw [hx] at h
      exact ⟨ext x, (master_iff _ hs _).1 ⟨x, hx, rfl⟩, (descends_iff path x (hm x hx) y).1 ⟨z, h, hz⟩⟩
  · rintro ⟨x, h1, h2⟩
    obtain ⟨x', hx, rfl⟩ := (master_iff _ hs _).2 h1
    obtain ⟨z, h, hz⟩ := (descends_iff path x' (hm x' hx) y).2 h2
    exact ⟨z, by rw [hx]; exact h, hz⟩

theorem descends_append {x y : ExtKey} {path : List Nat} {i : Nat} :
    Descends G x (path ++ [i]) y ↔ ∃ z, Descends G x path z ∧ IsChild G z i y := by
  induction path generalizing x with
  | nil =>
    constructor
    · intro h
      cases h with
      | child _ w _ _ _ hw hz => cases hz; exact ⟨x, .here _, hw⟩
    · rintro ⟨z, h, hz⟩
      cases h
      exact .child _ y _ _ _ hz (.here _)
  | cons j path ih =>
    constructor
    · intro h
      cases h with
      | child _ w _ _ _ hw hz =>
        obtain ⟨z, h1, h2⟩ := ih.1 hz
        exact ⟨z, .child _ w _ _ _ hw h1, h2⟩
    · rintro ⟨z, h, hz⟩
      cases h with
      | child _ w _ _ _ hw h1 => exact .child _ w _ _ _ hw (ih.2 ⟨z, h1, hz⟩)

/-- **C104** The key of a wallet is the one at the path 44', 5757', 0', 0 from the seed of the phrase, and there
is a wallet if and only if there is such a key. -/
theorem C104_wallet (phrases : Bip32.Phrases) : letI : Bip := Bip32.realBip phrases
    ∀ (s : Str) (m : phrases.Mnemonic), phrases.parse s = .ok m → (phrases.text m).bytes.length < 2 ^ 124 → ∀ y,
      (∃ w, StacksWallet.fromSecretKey s = .ok w ∧ ext w.ext = y) ↔
        ∃ seed, IsSeed (phrases.text m) seed ∧ AtPath G seed stacksPath y := by
  let _ : Bip := Bip32.realBip phrases
  intro s m hm hp y
  have hseed := (seed_iff (phrases.text m) hp (Bip32.toSeed (phrases.text m) [])).2 rfl
  simp only [seed_iff _ hp, exists_eq_left]
  rw [show stacksPath = List.map UInt32.toNat [2 ^ 31 + 44, 2 ^ 31 + 5757, 2 ^ 31, 0] by decide,
    ← atPath_iff _ (.of_le (by rw [seed_length hseed]; decide)) _ (by simp)]
  obtain ⟨h1, -⟩ := Wallet.C59_root_key s
  constructor
  · rintro ⟨w, hw, rfl⟩
    obtain ⟨m', p, x, a, b, c, rfl⟩ := (h1 w).1 hw
    have e1 : m' = m := Except.ok.inj (a.symm.trans hm)
    have e2 := Except.ok.inj (b.symm.trans parse_stxPath)
    rw [e1, e2] at c
    exact ⟨x, c, rfl⟩
  · rintro ⟨z, hz, rfl⟩
    exact ⟨_, (h1 _).2 ⟨m, _, z, hm, parse_stxPath, hz, rfl⟩, rfl⟩

/-- **C104** The account at an index, whatever was asked for before, is the child at that index: the key at
44', 5757', 0', 0, index. If there is such a key it is the private key of the account, the account's public key is
that multiple of the generator, and its addresses are the hash of the public key's compressed form. If there is
none, the answer is an error of the crate `bip32`. -/
theorem C104_account (phrases : Bip32.Phrases) : letI : Bip := Bip32.realBip phrases
    ∀ [Hashes] (s : Str) (m : phrases.Mnemonic), phrases.parse s = .ok m → (phrases.text m).bytes.length < 2 ^ 124 →
    ∀ w, StacksWallet.fromSecretKey s = .ok w → ∀ (history : List UInt32) (i : UInt32),
      (∀ seed y, IsSeed (phrases.text m) seed → AtPath G seed (stacksPath ++ [i.toNat]) y →
        ∃ (a : StacksAccount) (d : Ecdsa.SK) (q : Ecdsa.PK) (bytes : Bytes),
          ((afterCalls w (history.map .get)).getAccount i).1 = .ok a ∧ a.index = i ∧
          a.privateKey = .ok d ∧ d.1 = y.key ∧
          a.publicKey = .ok q ∧ (Ecdsa.serialize q).1 = bytes ∧ IsCompressed (y.key • G) bytes ∧
          ∀ v, a.getAddress v = (C32.c32Address (hash160Of bytes).1 (versionByte v)).mapErr .c32) ∧
      ((¬ ∃ seed y, IsSeed (phrases.text m) seed ∧ AtPath G seed (stacksPath ++ [i.toNat]) y) →
        ((afterCalls w (history.map .get)).getAccount i).1 = .err (.bip32 .crypto)) := by
  let _ : Bip := Bip32.realBip phrases
  intro _ s m hm hp w hw history i
  have hseed := (seed_iff (phrases.text m) hp (Bip32.toSeed (phrases.text m) [])).2 rfl
  obtain ⟨m', p, x, a, b, c, rfl⟩ := ((Wallet.C59_root_key s).1 w).1 hw
  have e1 : m' = m := Except.ok.inj (a.symm.trans hm)
  have e2 := Except.ok.inj (b.symm.trans parse_stxPath)
  rw [e1, e2] at c
  rw [Wallet.C59_transparent]
  have hx : x.depth ≠ 255 := by
    intro h
    have := (deriveFromPath_depth _ _ (by simp)).1 x c
    rw [h] at this
    cases this
  have hpath : ∀ y, AtPath G (Bip32.toSeed (phrases.text m) []) (stacksPath ++ [i.toNat]) y ↔
      IsChild G (ext x) i.toNat y := by
    intro y
    have hat : ∀ z, AtPath G (Bip32.toSeed (phrases.text m) []) stacksPath z ↔ ext x = z := by
      intro z
      rw [show stacksPath = List.map UInt32.toNat [2 ^ 31 + 44, 2 ^ 31 + 5757, 2 ^ 31, 0] by decide,
        ← atPath_iff _ (.of_le (by rw [seed_length hseed]; decide)) _ (by simp)]
      constructor
      · rintro ⟨x', h, rfl⟩
        rw [Except.ok.inj (c.symm.trans h)]
      · intro h
        exact ⟨x, c, h⟩
    constructor
    · rintro ⟨k, h1, h2⟩
      obtain ⟨z, h3, h4⟩ := descends_append.1 h2
      rw [(hat z).1 ⟨k, h1, h3⟩]
      exact h4
    · intro h
      obtain ⟨k, h1, h2⟩ := (hat (ext x)).2 rfl
      exact ⟨k, h1, descends_append.2 ⟨_, h2, h⟩⟩
  refine ⟨fun seed y hs hy => ?_, fun hn => ?_⟩
  · rw [(seed_iff _ hp _).1 hs] at hy
    obtain ⟨z, hz, rfl⟩ := (child_iff x hx i y).2 ((hpath y).1 hy)
    refine ⟨⟨z, i⟩, z.key, Ecdsa.pub z.key, _, ?_, rfl, ?_, rfl, ?_, rfl, (compressed_pub z.key _).2 rfl, fun v => ?_⟩
    · rw [show Bip.deriveChild x i = .ok z from hz]
    · unfold StacksAccount.privateKey
      rw [show Bip.skFromSlice (Bip.privateBytes z).1 = .ok z.key from Bip32.skFromSlice_eq z.key]
      rfl
    · unfold StacksAccount.publicKey
      rw [show Bip.pkFromSlice (Bip.publicBytes z).1 = .ok (Ecdsa.pub z.key) from Bip32.pkFromSlice_eq z.key]
      rfl
    · unfold StacksAccount.getAddress
      cases v <;> rfl
  · cases hz : Bip32.deriveChild x i with
    | ok z => exact absurd ⟨_, ext z, hseed, (hpath _).2 ((child_iff x hx i _).1 ⟨z, hz, rfl⟩)⟩ hn
    | error e =>
      rw [show Bip.deriveChild x i = .error e from hz, (deriveChild_depth x i).2 e hz hx]

/-- **C104** There is at most one key at a path. -/
theorem C104_unique (seed : Bytes) (hs : seed.length < 2 ^ 124) (path : List UInt32) (hp : path.length ≤ 255) (y z : ExtKey)
    (hy : AtPath G seed (path.map UInt32.toNat) y) (hz : AtPath G seed (path.map UInt32.toNat) z) : y = z := by
  obtain ⟨y', h1, rfl⟩ := (atPath_iff seed hs path hp y).2 hy
  obtain ⟨z', h2, rfl⟩ := (atPath_iff seed hs path hp z).2 hz
  rw [Except.ok.inj (h1.symm.trans h2)]

/-- **C104** Below 2³¹ the public key of a child follows from the public key and the chain code of its parent: a
multiple of the generator, found by hashing them with the index, is added. So the public keys of all accounts
below 2³¹ follow from the public key and the chain code of the wallet, and with one of their private keys also the
private key of the wallet. -/
theorem C104_public (x y : ExtKey) (i : Nat) (hi : i < 2 ^ 31) (h : IsChild G x i y) :
    ∃ bytes mac left, IsCompressed (x.key • G) bytes ∧ IsHmac x.chain (bytes ++ beBytes 4 i) mac ∧
      beVal mac = left * 2 ^ 256 + beVal y.chain ∧ left = beVal mac / 2 ^ 256 ∧
      y.key • G = x.key • G + left • G ∧
      x.key ≡ y.key + (Spec.Ecdsa.order - left) [MOD Spec.Ecdsa.order] := by
  obtain ⟨data, mac, left, ⟨bytes, hb, rfl⟩, hm, h0, h1, h2, h3, h4, h5, h6⟩ := h
  rw [if_pos hi] at hb
  refine ⟨bytes, mac, left, hb, hm, h3, (half_split h2 h3).1.symm, ?_, ?_⟩
  · rw [← add_nsmul]
    have h6' : y.key ≡ x.key + left [MOD addOrderOf G] := by rw [Ecdsa.addOrderOf_G]; exact h6
    exact nsmul_eq_nsmul_iff_modEq.2 h6'
  · generalize Spec.Ecdsa.order = n at h1 h6 ⊢
    have e : y.key + (n - left) ≡ x.key + left + (n - left) [MOD n] := h6.add_right _
    have e2 : x.key + left + (n - left) = x.key + n := by omega
    rw [e2] at e
    exact (e.trans (Nat.add_modEq_right)).symm

/-- A seed of which the wallet's key and a child of each kind exist. -/
example : (∃ y, AtPath G [1, 2, 3] stacksPath y) ∧ (∃ y, AtPath G [1, 2, 3] (stacksPath ++ [7]) y) ∧
    ∃ y, AtPath G [1, 2, 3] (stacksPath ++ [2 ^ 31]) y := by
  have h : ∀ (path : List UInt32) (l : List Nat), path.map UInt32.toNat = l → path.length ≤ 255 →
      (match Bip32.deriveFromPath [1, 2, 3] path with | .ok _ => true | .error _ => false) = true →
      ∃ y, AtPath G [1, 2, 3] l y := by
    rintro path _ rfl hp h
    cases hx : Bip32.deriveFromPath [1, 2, 3] path with
    | ok x => exact ⟨_, (atPath_iff _ (.of_le (by decide)) path hp _).1 ⟨x, hx, rfl⟩⟩
    | error e => rw [hx] at h; cases h
  exact ⟨h [2 ^ 31 + 44, 2 ^ 31 + 5757, 2 ^ 31, 0] _ (by decide) (by decide) (by decide +kernel),
    h [2 ^ 31 + 44, 2 ^ 31 + 5757, 2 ^ 31, 0, 7] _ (by decide) (by decide) (by decide +kernel),
    h [2 ^ 31 + 44, 2 ^ 31 + 5757, 2 ^ 31, 0, 2 ^ 31] _ (by decide) (by decide) (by decide +kernel)⟩

end Stacks
