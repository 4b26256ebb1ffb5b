import Verif.Proofs.Payload
import Verif.Spec.Condition

/-! # Lemmas about post-conditions -/

namespace Stacks.Tx
open Stacks.Spec Stacks.Clarity

/-! ## Encoding never reports `BadDowncast` -/

theorem lenBytes_ne_downcast (n : Nat) : lenBytes n ≠ .err .badDowncast := by
  unfold lenBytes; cases u32Bytes n <;> simp [Outcome.ofOption]

theorem lpsEncode_ne_downcast (s : Str) : lpsEncode s ≠ .err .badDowncast := by
  intro h
  by_cases hs : s.bytes.length ≤ 128
  · rw [lpsEncode_ok hs] at h; cases h
  · rw [lpsEncode_err hs] at h; cases h

variable [Hashes]

omit [Hashes] in
theorem c32_ne_downcast {α : Type} (o : Outcome C32.Error α) : o.mapErr Clarity.Error.c32 ≠ .err .badDowncast := by
  cases o <;> simp [Outcome.mapErr]

omit [Hashes] in
theorem bind_ne_err {α β : Type} {e : Clarity.Error} {x : Outcome Clarity.Error α} {f : α → Outcome Clarity.Error β}
    (h : x ≠ .err e) (hf : ∀ a, f a ≠ .err e) : (x >>= f) ≠ .err e := by
  cases x with
  | ok a => exact hf a
  | err e' => intro he; apply h; simpa using he
  | panic => simp

mutual
theorem encode_ne_downcast : (v : CV) → v.encode ≠ .err .badDowncast
  | .int _ => by simp [CV.encode]
  | .uint _ => by simp [CV.encode]
  | .buffer _ => by
    rw [CV.encode]; exact bind_ne_err (lenBytes_ne_downcast _) (fun _ => by simp)
  | .tru => by simp [CV.encode]
  | .fls => by simp [CV.encode]
  | .principalStd _ => by
    rw [CV.encode]; exact bind_ne_err (c32_ne_downcast _) (fun _ => by simp)
  | .principalCon _ _ => by
    rw [CV.encode]
    exact bind_ne_err (c32_ne_downcast _) (fun _ => bind_ne_err (lpsEncode_ne_downcast _) (fun _ => by simp))
  | .respOk v => by rw [CV.encode]; exact bind_ne_err (encode_ne_downcast v) (fun _ => by simp)
  | .respErr v => by rw [CV.encode]; exact bind_ne_err (encode_ne_downcast v) (fun _ => by simp)
  | .optNone => by simp [CV.encode]
  | .optSome v => by rw [CV.encode]; exact bind_ne_err (encode_ne_downcast v) (fun _ => by simp)
  | .list vs => by
    rw [CV.encode]
    exact bind_ne_err (lenBytes_ne_downcast _) (fun _ => bind_ne_err (encodeAll_ne_downcast vs) (fun _ => by simp))
  | .tuple es => by
    rw [CV.encode]
    exact bind_ne_err (lenBytes_ne_downcast _) (fun _ => bind_ne_err (encodeEntries_ne_downcast es) (fun _ => by simp))
  | .strAscii _ => by
    rw [CV.encode]; split
    · simp
    · exact bind_ne_err (lenBytes_ne_downcast _) (fun _ => by simp)
  | .strUtf8 _ => by rw [CV.encode]; exact bind_ne_err (lenBytes_ne_downcast _) (fun _ => by simp)
  | .lps s => by rw [CV.encode]; exact lpsEncode_ne_downcast s
  | .fnArgs vs => by
    rw [CV.encode]
    exact bind_ne_err (lenBytes_ne_downcast _) (fun _ => bind_ne_err (encodeAll_ne_downcast vs) (fun _ => by simp))
theorem encodeAll_ne_downcast : (vs : List CV) → CV.encodeAll vs ≠ .err .badDowncast
  | [] => by simp [CV.encodeAll]
  | v :: vs => by
    rw [CV.encodeAll]
    exact bind_ne_err (encode_ne_downcast v) (fun _ => bind_ne_err (encodeAll_ne_downcast vs) (fun _ => by simp))
theorem encodeEntries_ne_downcast : (es : List (Str × CV)) → CV.encodeEntries es ≠ .err .badDowncast
  | [] => by simp [CV.encodeEntries]
  | (_, v) :: es => by
    rw [CV.encodeEntries]
    exact bind_ne_err (lpsEncode_ne_downcast _) (fun _ => bind_ne_err (encode_ne_downcast v)
      (fun _ => bind_ne_err (encodeEntries_ne_downcast es) (fun _ => by simp)))
end

/-! ## The encoder -/

/-- Either the value is a principal, whose bytes are pushed, or `BadDowncast`. -/
theorem principalBytes_std (a : Str) :
    principalBytes (.principalStd a) = ((CV.principalStd a).encode >>= fun e => .ok (0x02 :: e.drop 1)) := by
  show ((CV.principalStd a).encode >>= _) = _
  cases he : (CV.principalStd a).encode with
  | ok e =>
    obtain ⟨_, rfl⟩ := encode_eq_ok.1 he
    rw [Outcome.ok_bind, sip005, sliceFrom_one]; rfl
  | err e => rfl
  | panic => rfl

theorem principalBytes_con (a n : Str) :
    principalBytes (.principalCon a n) = ((CV.principalCon a n).encode >>= fun e => .ok (0x03 :: e.drop 1)) := by
  show ((CV.principalCon a n).encode >>= _) = _
  cases he : (CV.principalCon a n).encode with
  | ok e =>
    obtain ⟨_, rfl⟩ := encode_eq_ok.1 he
    rw [Outcome.ok_bind, sip005, sliceFrom_one]; rfl
  | err e => rfl
  | panic => rfl

theorem principalBytes_other (v : CV) (h : ¬ IsPrincipal v) : principalBytes v = .err .badDowncast := by
  cases v <;> first
    | rfl
    | exact absurd (.inl ⟨_, rfl⟩) h
    | exact absurd (.inr ⟨_, _, rfl⟩) h

theorem principalBytes_ok (v : CV) (hp : IsPrincipal v) (he : Encodable v) :
    principalBytes v = .ok (principalField v) := by
  rcases hp with ⟨a, rfl⟩ | ⟨a, n, rfl⟩
  · rw [principalBytes_std, encode_ok _ he]; rfl
  · rw [principalBytes_con, encode_ok _ he]; rfl

theorem principalBytes_err (v : CV) (hp : IsPrincipal v) (he : ¬ Encodable v) :
    ∃ e, principalBytes v = .err e ∧ e ≠ .badDowncast := by
  obtain ⟨e, h⟩ := encode_err v he
  have hne : e ≠ .badDowncast := fun h' => encode_ne_downcast v (h' ▸ h)
  rcases hp with ⟨a, rfl⟩ | ⟨a, n, rfl⟩
  · exact ⟨e, by rw [principalBytes_std, h]; rfl, hne⟩
  · exact ⟨e, by rw [principalBytes_con, h]; rfl, hne⟩

theorem asset_encode (i : AssetInfo) :
    i.encode = ((CV.principalStd i.address).encode >>= fun a => (CV.lps i.name).encode >>= fun n =>
      (CV.lps i.asset).encode >>= fun s => .ok (a.drop 1 ++ n ++ s)) := by
  unfold AssetInfo.encode
  cases he : (CV.principalStd i.address).encode with
  | ok e =>
    obtain ⟨_, rfl⟩ := encode_eq_ok.1 he
    rw [Outcome.ok_bind, Outcome.ok_bind, sip005, sliceFrom_one]; rfl
  | err e => rfl
  | panic => rfl

theorem asset_encode_ok (i : AssetInfo) (h : EncodableAsset i) : i.encode = .ok (assetField i) := by
  rw [asset_encode, encode_ok (.principalStd i.address) h.1, encode_ok (.lps i.name) h.2.1,
    encode_ok (.lps i.asset) h.2.2]
  rfl

theorem asset_encode_err (i : AssetInfo) (h : ¬ EncodableAsset i) :
    ∃ e, i.encode = .err e ∧ e ≠ .badDowncast := by
  rw [asset_encode]
  have key : ∀ v : CV, (Encodable v ∧ v.encode = .ok (sip005 v)) ∨
      (¬ Encodable v ∧ ∃ e, v.encode = .err e ∧ e ≠ .badDowncast) := by
    intro v
    by_cases hv : Encodable v
    · exact .inl ⟨hv, encode_ok v hv⟩
    · obtain ⟨e, he⟩ := encode_err v hv
      exact .inr ⟨hv, e, he, fun h' => encode_ne_downcast v (h' ▸ he)⟩
  rcases key (.principalStd i.address) with ⟨h1, e1⟩ | ⟨_, e, e1, hne⟩
  · rcases key (.lps i.name) with ⟨h2, e2⟩ | ⟨_, e, e2, hne⟩
    · rcases key (.lps i.asset) with ⟨h3, e3⟩ | ⟨_, e, e3, hne⟩
      · exact absurd ⟨h1, h2, h3⟩ h
      · exact ⟨e, by rw [e1, e2, e3]; rfl, hne⟩
    · exact ⟨e, by rw [e1, e2]; rfl, hne⟩
  · exact ⟨e, by rw [e1]; rfl, hne⟩

omit [Hashes] in
theorem code_eq (c : ConditionCode) : c.toU8 = conditionCode c := by cases c <;> rfl

theorem condition_encode_ok (c : Condition) (h : EncodableCondition c) : c.encode = .ok (conditionBytes c) := by
  cases c with
  | stx a amount code =>
    rw [Condition.encode, principalBytes_ok _ h.1 h.2]
    simp [code_eq, conditionBytes, be64]
  | fungible a amount code info =>
    rw [Condition.encode, principalBytes_ok _ h.1.1 h.1.2, asset_encode_ok _ h.2]
    simp [code_eq, conditionBytes, be64]
  | nonFungible a token code info =>
    rw [Condition.encode, principalBytes_ok _ h.1.1 h.1.2, asset_encode_ok _ h.2.1, encode_ok _ h.2.2]
    simp [code_eq, conditionBytes]

theorem condition_encode_downcast (c : Condition) (h : ¬ IsPrincipal (conditionAddress c)) :
    c.encode = .err .badDowncast := by
  cases c with
  | stx a amount code => rw [Condition.encode, principalBytes_other a h]; rfl
  | fungible a amount code info => rw [Condition.encode, principalBytes_other a h]; rfl
  | nonFungible a token code info => rw [Condition.encode, principalBytes_other a h]; rfl

theorem condition_encode_err (c : Condition) (hp : IsPrincipal (conditionAddress c)) (h : ¬ EncodableCondition c) :
    ∃ e, c.encode = .err e ∧ e ≠ .badDowncast := by
  by_cases ha : Encodable (conditionAddress c)
  · cases c with
    | stx a amount code => exact absurd ⟨hp, ha⟩ h
    | fungible a amount code info =>
      have hi : ¬ EncodableAsset info := fun hi => h ⟨⟨hp, ha⟩, hi⟩
      obtain ⟨e, he, hne⟩ := asset_encode_err info hi
      exact ⟨e, by rw [Condition.encode, principalBytes_ok a hp ha, Outcome.ok_bind, he]; rfl, hne⟩
    | nonFungible a token code info =>
      by_cases hi : EncodableAsset info
      · have ht : ¬ Encodable token := fun ht => h ⟨⟨hp, ha⟩, hi, ht⟩
        obtain ⟨e, he⟩ := encode_err token ht
        refine ⟨e, ?_, fun h' => encode_ne_downcast token (h' ▸ he)⟩
        rw [Condition.encode, principalBytes_ok a hp ha, Outcome.ok_bind, asset_encode_ok _ hi, Outcome.ok_bind, he]
        rfl
      · obtain ⟨e, he, hne⟩ := asset_encode_err info hi
        exact ⟨e, by rw [Condition.encode, principalBytes_ok a hp ha, Outcome.ok_bind, he]; rfl, hne⟩
  · obtain ⟨e, he, hne⟩ := principalBytes_err _ hp ha
    refine ⟨e, ?_, hne⟩
    cases c with
    | stx a amount code => rw [Condition.encode, show principalBytes a = _ from he]; rfl
    | fungible a amount code info => rw [Condition.encode, show principalBytes a = _ from he]; rfl
    | nonFungible a token code info => rw [Condition.encode, show principalBytes a = _ from he]; rfl

theorem wf_encodableCondition (c : Condition) (h : WellFormedCondition c) : EncodableCondition c := by
  have ha : ∀ i, WellFormedAsset i → EncodableAsset i := fun i hi =>
    ⟨wf_encodable (.principalStd i.address) hi.1, hi.2⟩
  cases c with
  | stx a amount code => exact ⟨h.1, wf_encodable _ h.2⟩
  | fungible a amount code info => exact ⟨⟨h.1.1, wf_encodable _ h.1.2⟩, ha _ h.2⟩
  | nonFungible a token code info => exact ⟨⟨h.1.1, wf_encodable _ h.1.2⟩, ha _ h.2.1, wf_encodable _ h.2.2⟩

theorem conditions_encode_ok (cs : List Condition) (h : ∀ c ∈ cs, EncodableCondition c) :
    encodeConditions cs = .ok (cs.map conditionBytes).flatten := by
  induction cs with
  | nil => rfl
  | cons c cs ih =>
    rw [encodeConditions, condition_encode_ok c (h c (by simp)), ih (fun c hc => h c (by simp [hc]))]
    rfl

theorem conditions_encode_err (cs : List Condition) (h : ∃ c ∈ cs, ¬ EncodableCondition c) :
    ∃ e, encodeConditions cs = .err e := by
  induction cs with
  | nil => obtain ⟨c, hc, _⟩ := h; simp at hc
  | cons c cs ih =>
    by_cases hc : EncodableCondition c
    · obtain ⟨c', hc', hn⟩ := h
      have : ∃ c ∈ cs, ¬ EncodableCondition c := by
        rcases List.mem_cons.1 hc' with rfl | hm
        · exact absurd hc hn
        · exact ⟨c', hm, hn⟩
      obtain ⟨e, he⟩ := ih this
      exact ⟨e, by rw [encodeConditions, condition_encode_ok c hc, he]; rfl⟩
    · by_cases hp : IsPrincipal (conditionAddress c)
      · obtain ⟨e, he, _⟩ := condition_encode_err c hp hc
        exact ⟨e, by rw [encodeConditions, he]; rfl⟩
      · exact ⟨_, by rw [encodeConditions, condition_encode_downcast c hp]; rfl⟩

/-! ## The reader -/

/-- The reader `r` reads `x` from exactly the bytes `bs`. -/
def Reads {α : Type} (r : Reader α) (x : α) (bs : Bytes) : Prop := ∀ rest, r.run (bs ++ rest) = some (x, rest)

omit [Hashes] in
theorem Reads.bind {α β : Type} {r : Reader α} {f : α → Reader β} {x : α} {y : β} {b1 b2 : Bytes}
    (h1 : Reads r x b1) (h2 : Reads (f x) y b2) : Reads (r >>= f) y (b1 ++ b2) := by
  intro rest
  rw [StateT.run_bind, List.append_assoc, h1]
  exact h2 rest

omit [Hashes] in
theorem Reads.pure {α : Type} (x : α) : Reads (pure x : Reader α) x [] := fun _ => rfl

omit [Hashes] in
theorem Reads.bindPure {α β : Type} {r : Reader α} {g : α → β} {x : α} {b1 : Bytes}
    (h1 : Reads r x b1) : Reads (r >>= fun a => Pure.pure (g a)) (g x) b1 := by
  have := Reads.bind h1 (Reads.pure (g x)) (f := fun a => Pure.pure (g a))
  rwa [List.append_nil] at this

omit [Hashes] in
theorem reads_byte (b : UInt8) : Reads readByte b [b] := fun _ => rfl

omit [Hashes] in
theorem reads_bytes (bs : Bytes) : Reads (readBytes bs.length) bs bs := by
  intro rest
  show (if bs.length ≤ (bs ++ rest).length then _ else _) = _
  rw [if_pos (by simp)]; simp

omit [Hashes] in
theorem reads_nat {w n : Nat} (h : n < 256 ^ w) : Reads (readNat w) n (beBytes w n) := by
  have h1 := reads_bytes (beBytes w n)
  rw [beBytes_length] at h1
  have := Reads.bindPure (g := beVal) h1
  rwa [beVal_beBytes h] at this

omit [Hashes] in
theorem reads_amount (x : UInt64) : Reads (readNat 8) x.toNat (beBytes 8 x.toNat) :=
  reads_nat (by have := x.toNat_lt; norm_num; omega)

theorem reads_address (a : Str) (h : CanonicalAddress a) : Reads readAddress a (addrBytes a) := by
  obtain ⟨hash, version, hv, rfl⟩ := h
  have hb : addrBytes (addressString version hash.1) = [version] ++ (hash.1 ++ []) := by
    rw [addrBytes_canonical (C32.address_iff.2 ⟨hv, rfl⟩), List.append_nil]; rfl
  rw [hb]
  refine Reads.bind (reads_byte version) (Reads.bind (x := hash.1) ?_ ?_)
  · have := reads_bytes hash.1; rwa [hash.2] at this
  · rw [if_pos hv]; exact Reads.pure _

omit [Hashes] in
theorem reads_text (s : Str) : Reads (readText s.bytes.length) s s.bytes := by
  have := Reads.bind (f := fun bs => match fromUtf8 bs with | some s => (Pure.pure s : Reader Str) | none => failure)
    (reads_bytes s.bytes) (b2 := []) (y := s) (by rw [(fromUtf8_eq_some).2 rfl]; exact Reads.pure s)
  rwa [List.append_nil] at this

omit [Hashes] in
theorem reads_name (s : Str) (h : s.bytes.length ≤ 128) : Reads readName s (sized8 s) := by
  refine Reads.bind (b1 := [UInt8.ofNat s.bytes.length]) (reads_byte _) ?_
  rw [UInt8.toNat_ofNat', Nat.mod_eq_of_lt (by omega), if_pos h]
  exact reads_text s

theorem reads_principal (v : CV) (hp : IsPrincipal v) (hw : WellFormed v) : Reads readPrincipal v (principalField v) := by
  rcases hp with ⟨a, rfl⟩ | ⟨a, n, rfl⟩
  · refine Reads.bind (b1 := [2]) (b2 := addrBytes a) (reads_byte 2) ?_
    rw [← List.append_nil (addrBytes a)]
    exact Reads.bind (reads_address a hw) (Reads.pure _)
  · refine Reads.bind (b1 := [3]) (b2 := addrBytes a ++ sized8 n) (reads_byte 3) ?_
    refine Reads.bind (reads_address a hw.1) ?_
    exact Reads.bindPure (g := fun n => CV.principalCon a n) (reads_name n hw.2)

theorem reads_asset (i : AssetInfo) (h : WellFormedAsset i) : Reads readAsset i (assetField i) := by
  rw [assetField, List.append_assoc]
  refine Reads.bind (reads_address _ h.1) (Reads.bind (reads_name _ h.2.1) ?_)
  exact Reads.bindPure (g := fun s => (⟨i.address, i.name, s⟩ : AssetInfo)) (reads_name _ h.2.2)

omit [Hashes] in
theorem reads_code (c : ConditionCode) : Reads readCode c [conditionCode c] := by
  refine Reads.bind (b2 := []) (reads_byte (conditionCode c)) ?_
  cases c <;> exact Reads.pure _

omit [Hashes] in
theorem reads_word (x : BitVec 128) : Reads (readNat 16) x.toNat (beBytes 16 x.toNat) :=
  reads_nat (by have := x.isLt; norm_num at this ⊢; omega)

omit [Hashes] in
theorem reads_count {n : Nat} (h : n < 2 ^ 32) : Reads (readNat 4) n (beBytes 4 n) :=
  reads_nat (by norm_num at h ⊢; omega)

mutual
theorem reads_nested : (v : CV) → WellFormed v → ∀ d, (sip005 v).length ≤ d → Reads (readNested d) v (sip005 v)
  | v, h, 0, hd => by
    exfalso
    have : (sip005 v).length ≠ 0 := by
      cases v <;> first | (simp [sip005]; done) | cases h
    omega
  | .int x, _, d + 1, _ => by
    refine Reads.bind (b1 := [0x00]) (reads_byte 0x00) ?_
    have := Reads.bindPure (g := fun n => CV.int (BitVec.ofNat 128 n)) (reads_word x)
    rw [BitVec.ofNat_toNat, BitVec.setWidth_eq] at this
    rw [toInt_emod]
    exact this
  | .uint x, _, d + 1, _ => by
    refine Reads.bind (b1 := [0x01]) (reads_byte 0x01) ?_
    have := Reads.bindPure (g := fun n => CV.uint (BitVec.ofNat 128 n)) (reads_word x)
    rwa [BitVec.ofNat_toNat, BitVec.setWidth_eq] at this
  | .buffer bs, h, d + 1, _ => by
    refine Reads.bind (b1 := [0x02]) (reads_byte 0x02) (Reads.bind (reads_count h) ?_)
    exact Reads.bindPure (g := CV.buffer) (reads_bytes bs)
  | .tru, _, d + 1, _ => Reads.bind (b1 := [0x03]) (reads_byte 0x03) (Reads.pure _)
  | .fls, _, d + 1, _ => Reads.bind (b1 := [0x04]) (reads_byte 0x04) (Reads.pure _)
  | .principalStd a, h, d + 1, _ =>
    Reads.bind (b1 := [0x05]) (reads_byte 0x05) (Reads.bindPure (g := CV.principalStd) (reads_address a h))
  | .principalCon a n, h, d + 1, _ =>
    Reads.bind (b1 := [0x06]) (reads_byte 0x06) (Reads.bind (reads_address a h.1)
      (Reads.bindPure (g := CV.principalCon a) (reads_name n h.2)))
  | .respOk v, h, d + 1, hd =>
    Reads.bind (b1 := [0x07]) (reads_byte 0x07) (Reads.bindPure (g := CV.respOk)
      (reads_nested v h d (by simp [sip005] at hd; omega)))
  | .respErr v, h, d + 1, hd =>
    Reads.bind (b1 := [0x08]) (reads_byte 0x08) (Reads.bindPure (g := CV.respErr)
      (reads_nested v h d (by simp [sip005] at hd; omega)))
  | .optNone, _, d + 1, _ => Reads.bind (b1 := [0x09]) (reads_byte 0x09) (Reads.pure _)
  | .optSome v, h, d + 1, hd =>
    Reads.bind (b1 := [0x0a]) (reads_byte 0x0a) (Reads.bindPure (g := CV.optSome)
      (reads_nested v h d (by simp [sip005] at hd; omega)))
  | .list vs, h, d + 1, hd =>
    Reads.bind (b1 := [0x0b]) (reads_byte 0x0b) (Reads.bind (reads_count h.1) (Reads.bindPure (g := CV.list)
      (reads_nestedAll vs h.2 d (by simp [sip005] at hd; omega))))
  | .tuple es, h, d + 1, hd =>
    Reads.bind (b1 := [0x0c]) (reads_byte 0x0c) (Reads.bind (reads_count h.1) (Reads.bindPure (g := CV.tuple)
      (reads_nestedEntries es h.2 d (by simp [sip005] at hd; omega))))
  | .strAscii s, h, d + 1, _ => by
    refine Reads.bind (b1 := [0x0d]) (reads_byte 0x0d) (Reads.bind (reads_count h.2) ?_)
    have := Reads.bind (f := fun s => if ∀ c ∈ s, c.toNat < 128 then (Pure.pure (CV.strAscii s) : Reader CV) else failure)
      (reads_text s) (b2 := []) (y := .strAscii s) (by rw [if_pos h.1]; exact Reads.pure _)
    rwa [List.append_nil] at this
  | .strUtf8 s, h, d + 1, _ =>
    Reads.bind (b1 := [0x0e]) (reads_byte 0x0e) (Reads.bind (reads_count h)
      (Reads.bindPure (g := CV.strUtf8) (reads_text s)))
theorem reads_nestedAll : (vs : List CV) → WellFormedAll vs → ∀ d, (sip005All vs).length ≤ d →
    Reads (readMany (readNested d) vs.length) vs (sip005All vs)
  | [], _, _, _ => Reads.pure _
  | v :: vs, h, d, hd =>
    Reads.bind (reads_nested v h.1 d (by simp [sip005All] at hd; omega))
      (Reads.bindPure (g := fun vs => v :: vs) (reads_nestedAll vs h.2 d (by simp [sip005All] at hd; omega)))
theorem reads_nestedEntries : (es : List (Str × CV)) → WellFormedEntries es → ∀ d, (sip005Entries es).length ≤ d →
    Reads (readMany (do
        let k ← readName
        let v ← readNested d
        Pure.pure (k, v)) es.length) es (sip005Entries es)
  | [], _, _, _ => Reads.pure _
  | (k, v) :: es, h, d, hd =>
    Reads.bind (Reads.bind (reads_name k h.1)
        (Reads.bindPure (g := fun v => (k, v)) (reads_nested v h.2.1 d (by simp [sip005Entries] at hd; omega))))
      (Reads.bindPure (g := fun es => (k, v) :: es)
        (reads_nestedEntries es h.2.2 d (by simp [sip005Entries] at hd; omega)))
end

theorem reads_value (v : CV) (h : WellFormed v) : Reads readValue v (sip005 v) := fun rest =>
  reads_nested v h (sip005 v ++ rest).length (by simp) rest

theorem reads_condition (c : Condition) (h : WellFormedCondition c) : Reads readCondition c (conditionBytes c) := by
  cases c with
  | stx a amount code =>
    rw [conditionBytes]; simp only [List.append_assoc]
    refine Reads.bind (reads_byte 0) (Reads.bind (reads_principal a h.1 h.2) ?_)
    rw [if_pos rfl]
    refine Reads.bind (reads_code code) ?_
    have := Reads.bindPure (g := fun n => Condition.stx a (UInt64.ofNat n) code) (reads_amount amount)
    simpa using this
  | fungible a amount code info =>
    rw [conditionBytes]; simp only [List.append_assoc]
    refine Reads.bind (reads_byte 1) (Reads.bind (reads_principal a h.1.1 h.1.2) ?_)
    rw [if_neg (by decide)]
    refine Reads.bind (reads_asset info h.2) ?_
    rw [if_pos rfl]
    refine Reads.bind (reads_code code) ?_
    have := Reads.bindPure (g := fun n => Condition.fungible a (UInt64.ofNat n) code info) (reads_amount amount)
    simpa using this
  | nonFungible a token code info =>
    rw [conditionBytes]; simp only [List.append_assoc]
    refine Reads.bind (reads_byte 2) (Reads.bind (reads_principal a h.1.1 h.1.2) ?_)
    rw [if_neg (by decide)]
    refine Reads.bind (reads_asset info h.2.1) ?_
    rw [if_neg (by decide), if_pos rfl]
    refine Reads.bind (reads_value token h.2.2) ?_
    exact Reads.bindPure (g := fun code => Condition.nonFungible a token code info) (reads_code code)

omit [Hashes] in
theorem reads_many {α : Type} {r : Reader α} {enc : α → Bytes} (xs : List α) (h : ∀ x ∈ xs, Reads r x (enc x)) :
    Reads (readMany r xs.length) xs (xs.map enc).flatten := by
  induction xs with
  | nil => exact Reads.pure _
  | cons x xs ih =>
    rw [List.map_cons, List.flatten_cons]
    refine Reads.bind (h x (by simp)) ?_
    exact Reads.bindPure (g := fun xs => x :: xs) (ih (fun y hy => h y (by simp [hy])))

theorem reads_conditions (cs : List Condition) (hl : cs.length < 2 ^ 32) (h : ∀ c ∈ cs, WellFormedCondition c) :
    Reads readConditions cs (conditionsBytes cs) := by
  refine Reads.bind (reads_nat (by norm_num at hl ⊢; omega)) ?_
  exact reads_many cs (fun c hc => reads_condition c (h c hc))

end Stacks.Tx
