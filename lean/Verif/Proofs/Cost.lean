import Verif.Model.Cost
import Verif.Spec.Resources
import Verif.Proofs.ClarityMain

/-! Helper lemmas about the counting functions. -/

namespace Stacks.Clarity
open Stacks.Spec Cost

theorem cost_pure {α : Type} (a : α) : (pure a : Cost α) = (0, .ok a) := rfl

theorem bind_snd {α β : Type} (x : Cost α) (f : α → Cost β) :
    (x >>= f).2 = x.2 >>= fun a => (f a).2 := by
  obtain ⟨c, o⟩ := x; cases o <;> rfl

theorem bind_fst {α β : Type} (x : Cost α) (f : α → Cost β) :
    (x >>= f).1 = x.1 + match x.2 with | .ok a => (f a).1 | _ => 0 := by
  obtain ⟨c, o⟩ := x; cases o <;> rfl

theorem bind_pure_fst {α β : Type} (x : Cost α) (f : α → β) : (x >>= fun a => pure (f a)).1 = x.1 := by
  obtain ⟨c, o⟩ := x; cases o <;> rfl

@[simp] theorem free_snd {α : Type} (o : Outcome Error α) : (free o).2 = o := rfl
@[simp] theorem free_fst {α : Type} (o : Outcome Error α) : (free o).1 = 0 := rfl
@[simp] theorem write_snd (n : Nat) : (write n).2 = .ok () := rfl
@[simp] theorem write_fst (n : Nat) : (write n).1 = n := rfl
@[simp] theorem pure_snd {α : Type} (a : α) : (pure a : Cost α).2 = .ok a := rfl
@[simp] theorem pure_fst {α : Type} (a : α) : (pure a : Cost α).1 = 0 := rfl

theorem cost_ext {α : Type} {x y : Cost α} (h1 : x.1 = y.1) (h2 : x.2 = y.2) : x = y := Prod.ext h1 h2

@[simp] theorem ok_bind_cost {α β : Type} (a : α) (f : α → Cost β) : (free (.ok a) >>= f) = f a := by
  apply cost_ext
  · simp [bind_fst]
  · simp [bind_snd]

theorem leaf_snd (o : Outcome Error Bytes) : (o >>= fun e => Outcome.ok e) = o := by cases o <;> rfl

section
variable [Hashes]

/-! ## The results are the same -/

mutual
theorem encodeCost_snd : (v : CV) → v.encodeCost.2 = v.encode
  | .respOk v => by simp [CV.encodeCost, CV.encode, bind_snd, encodeCost_snd v]
  | .respErr v => by simp [CV.encodeCost, CV.encode, bind_snd, encodeCost_snd v]
  | .optSome v => by simp [CV.encodeCost, CV.encode, bind_snd, encodeCost_snd v]
  | .list vs => by simp [CV.encodeCost, CV.encode, bind_snd, encodeAllCost_snd vs]
  | .tuple es => by simp [CV.encodeCost, CV.encode, bind_snd, encodeEntriesCost_snd es]
  | .fnArgs vs => by simp [CV.encodeCost, CV.encode, bind_snd, encodeAllCost_snd vs]
  | .int _ => by simp [CV.encodeCost, bind_snd, leaf_snd]
  | .uint _ => by simp [CV.encodeCost, bind_snd, leaf_snd]
  | .buffer _ => by simp [CV.encodeCost, bind_snd, leaf_snd]
  | .tru => by simp [CV.encodeCost, bind_snd, leaf_snd]
  | .fls => by simp [CV.encodeCost, bind_snd, leaf_snd]
  | .principalStd _ => by simp [CV.encodeCost, bind_snd, leaf_snd]
  | .principalCon _ _ => by simp [CV.encodeCost, bind_snd, leaf_snd]
  | .optNone => by simp [CV.encodeCost, bind_snd, leaf_snd]
  | .strAscii _ => by simp [CV.encodeCost, bind_snd, leaf_snd]
  | .strUtf8 _ => by simp [CV.encodeCost, bind_snd, leaf_snd]
  | .lps _ => by simp [CV.encodeCost, bind_snd, leaf_snd]
theorem encodeAllCost_snd : (vs : List CV) → (CV.encodeAllCost vs).2 = CV.encodeAll vs
  | [] => rfl
  | v :: vs => by simp [CV.encodeAllCost, CV.encodeAll, bind_snd, encodeCost_snd v, encodeAllCost_snd vs]
theorem encodeEntriesCost_snd : (es : List (Str × CV)) → (CV.encodeEntriesCost es).2 = CV.encodeEntries es
  | [] => rfl
  | (k, v) :: es => by
    simp [CV.encodeEntriesCost, CV.encodeEntries, bind_snd, encodeCost_snd v, encodeEntriesCost_snd es]
end

theorem listLoopCost_snd (rec : Bytes → Cost CV) (bytes : Bytes) (n off : Nat) :
    (listLoopCost rec bytes n off).2 = listLoop (fun b => (rec b).2) bytes n off := by
  induction n generalizing off with
  | zero => rfl
  | succ n ih => simp [listLoopCost, listLoop, bind_snd, encodeCost_snd, ih]

theorem tupleLoopCost_snd (rec : Bytes → Cost CV) (bytes : Bytes) (n off : Nat) :
    (tupleLoopCost rec bytes n off).2 = tupleLoop (fun b => (rec b).2) bytes n off := by
  induction n generalizing off with
  | zero => rfl
  | succ n ih => simp [tupleLoopCost, tupleLoop, bind_snd, encodeCost_snd, ih]

theorem stepCost (stop : Outcome Error CV) (f : Nat) (t : UInt8) (r : Bytes) :
    decodeAtCost stop (f + 1) (t :: r) =
      if t = 0x07 then wrappedDecodeCost idRespOk (decodeAtCost stop f) (t :: r) >>= fun v => pure (.respOk v)
      else if t = 0x08 then wrappedDecodeCost idRespErr (decodeAtCost stop f) (t :: r) >>= fun v => pure (.respErr v)
      else if t = 0x0a then wrappedDecodeCost idSome (decodeAtCost stop f) (t :: r) >>= fun v => pure (.optSome v)
      else if t = 0x0b then listDecodeCost (decodeAtCost stop f) (t :: r) >>= fun v => pure (.list v)
      else if t = 0x0c then tupleDecodeCost (decodeAtCost stop f) (t :: r) >>= fun v => pure (.tuple v)
      else free (decodeAt stop (f + 1) (t :: r)) := by
  rw [decodeAtCost]
  generalize hx : (free (idx (t :: r) 0) : Cost UInt8) = x
  have : x = pure t := hx.symm
  subst this
  show Cost.andThen (0, .ok t) _ = _
  simp only [Cost.andThen, Nat.zero_add]
  rfl

omit [Hashes] in
theorem wrappedCost_eq (id : UInt8) (rec : Bytes → Cost CV) (r : Bytes) :
    wrappedDecodeCost id rec (id :: r) = rec r := by
  rw [wrappedDecodeCost, checkId_self, ok_bind_cost, sliceFrom_one, ok_bind_cost]

theorem decodeAtCost_snd (stop : Outcome Error CV) (f : Nat) (bytes : Bytes) :
    (decodeAtCost stop f bytes).2 = decodeAt stop f bytes := by
  induction f generalizing bytes with
  | zero => rfl
  | succ f ih =>
    have ih' : (fun b => (decodeAtCost stop f b).2) = decodeAt stop f := funext ih
    match bytes with
    | [] => rfl
    | t :: r =>
      rw [stepCost]
      split
      · subst t; simp only [bind_snd, show idRespOk = 7 from rfl, wrappedCost_eq, ih, step_respOk, pure_snd]
      split
      · subst t; simp only [bind_snd, show idRespErr = 8 from rfl, wrappedCost_eq, ih, step_respErr, pure_snd]
      split
      · subst t; simp only [bind_snd, show idSome = 10 from rfl, wrappedCost_eq, ih, step_some, pure_snd]
      split
      · subst t
        rw [listDecodeCost, show idList = 11 from rfl, checkId_self, ok_bind_cost]
        simp only [bind_snd, free_snd, listLoopCost_snd, ih', pure_snd, step_list, bind_assoc]
      split
      · subst t
        rw [tupleDecodeCost, show idTuple = 12 from rfl, checkId_self, ok_bind_cost]
        simp only [bind_snd, free_snd, tupleLoopCost_snd, ih', pure_snd, step_tuple, bind_assoc]
      · rfl

theorem decodeCost_snd (bytes : Bytes) : (decodeCost bytes).2 = decode bytes := decodeAtCost_snd _ _ _

theorem fnArgsLoopCost_snd (n : Nat) (bytes : Bytes) : (fnArgsLoopCost n bytes).2 = fnArgsLoop n bytes := by
  induction n generalizing bytes with
  | zero => rfl
  | succ n ih =>
    simp only [fnArgsLoopCost, fnArgsLoop, bind_snd, decodeCost_snd, encodeCost_snd, ih, pure_snd, free_snd, CV.len,
      bind_assoc, Outcome.pure_def, Outcome.ok_bind]

/-! ## Upper bounds -/

theorem leaf_le (v : CV) (h : v.encodeCost = (do let e ← free v.encode; write e.length; pure e)) :
    v.encodeCost.1 ≤ (sip005 v).length ^ 2 := by
  rw [h]
  simp only [bind_fst, free_fst, free_snd, write_fst, write_snd, pure_fst]
  cases he : v.encode with
  | ok e =>
    obtain ⟨_, rfl⟩ := encode_eq_ok.1 he
    simp only [Nat.add_zero, Nat.zero_add]
    exact Nat.le_self_pow (by decide) _
  | err => simp
  | panic => simp

omit [Hashes] in
theorem wrap_le {a l : Nat} (h : a ≤ l ^ 2) : 1 + (a + l) ≤ (l + 1) ^ 2 := by nlinarith

omit [Hashes] in
theorem many_le {a l k : Nat} (h : a ≤ l ^ 2 + l) (hk : 4 ≤ k) : k + a ≤ (l + k) ^ 2 := by
  have : (l + k) ^ 2 = l ^ 2 + 2 * l * k + k ^ 2 := by ring
  have h2 : k ≤ k ^ 2 := Nat.le_self_pow (by decide) _
  have h3 : l ≤ 2 * l * k := by nlinarith
  omega

mutual
theorem encodeCost_le : (v : CV) → v.encodeCost.1 ≤ (sip005 v).length ^ 2
  | .respOk v => by
    have := encodeCost_le v
    simp only [CV.encodeCost, bind_fst, write_fst, write_snd, encodeCost_snd, pure_fst, sip005, List.length_cons]
    cases he : v.encode with
    | ok e => obtain ⟨_, rfl⟩ := encode_eq_ok.1 he; exact wrap_le this
    | err => exact le_trans (Nat.add_le_add_left (Nat.le_add_right _ _) _) (wrap_le this)
    | panic => exact le_trans (Nat.add_le_add_left (Nat.le_add_right _ _) _) (wrap_le this)
  | .respErr v => by
    have := encodeCost_le v
    simp only [CV.encodeCost, bind_fst, write_fst, write_snd, encodeCost_snd, pure_fst, sip005, List.length_cons]
    cases he : v.encode with
    | ok e => obtain ⟨_, rfl⟩ := encode_eq_ok.1 he; exact wrap_le this
    | err => exact le_trans (Nat.add_le_add_left (Nat.le_add_right _ _) _) (wrap_le this)
    | panic => exact le_trans (Nat.add_le_add_left (Nat.le_add_right _ _) _) (wrap_le this)
  | .optSome v => by
    have := encodeCost_le v
    simp only [CV.encodeCost, bind_fst, write_fst, write_snd, encodeCost_snd, pure_fst, sip005, List.length_cons]
    cases he : v.encode with
    | ok e => obtain ⟨_, rfl⟩ := encode_eq_ok.1 he; exact wrap_le this
    | err => exact le_trans (Nat.add_le_add_left (Nat.le_add_right _ _) _) (wrap_le this)
    | panic => exact le_trans (Nat.add_le_add_left (Nat.le_add_right _ _) _) (wrap_le this)
  | .list vs => by
    have := encodeAllCost_le vs
    rw [CV.encodeCost]
    simp only [bind_fst (free _), bind_fst (write _), bind_pure_fst, free_fst, free_snd, write_fst, write_snd, sip005, List.length_cons,
      List.length_append, beBytes_length]
    cases (lenBytes vs.length : Outcome Error Bytes) with
    | ok n =>
      simp only [Nat.zero_add]
      exact le_of_le_of_eq (many_le this (by decide)) (by ring)
    | err => exact Nat.zero_le _
    | panic => exact Nat.zero_le _
  | .tuple es => by
    have := encodeEntriesCost_le es
    rw [CV.encodeCost]
    simp only [bind_fst (free _), bind_fst (write _), bind_pure_fst, free_fst, free_snd, write_fst, write_snd, sip005, List.length_cons,
      List.length_append, beBytes_length]
    cases (lenBytes es.length : Outcome Error Bytes) with
    | ok n =>
      simp only [Nat.zero_add]
      exact le_of_le_of_eq (many_le this (by decide)) (by ring)
    | err => exact Nat.zero_le _
    | panic => exact Nat.zero_le _
  | .fnArgs vs => by
    have := encodeAllCost_le vs
    rw [CV.encodeCost]
    simp only [bind_fst (free _), bind_fst (write _), bind_pure_fst, free_fst, free_snd, write_fst, write_snd, sip005,
      List.length_append, beBytes_length]
    cases (lenBytes vs.length : Outcome Error Bytes) with
    | ok n =>
      simp only [Nat.zero_add]
      exact le_of_le_of_eq (many_le this (by decide)) (by ring)
    | err => exact Nat.zero_le _
    | panic => exact Nat.zero_le _
  | .int _ => leaf_le _ rfl
  | .uint _ => leaf_le _ rfl
  | .buffer _ => leaf_le _ rfl
  | .tru => leaf_le _ rfl
  | .fls => leaf_le _ rfl
  | .principalStd _ => leaf_le _ rfl
  | .principalCon _ _ => leaf_le _ rfl
  | .optNone => leaf_le _ rfl
  | .strAscii _ => leaf_le _ rfl
  | .strUtf8 _ => leaf_le _ rfl
  | .lps _ => leaf_le _ rfl
theorem encodeAllCost_le : (vs : List CV) →
    (CV.encodeAllCost vs).1 ≤ (sip005All vs).length ^ 2 + (sip005All vs).length
  | [] => by simp [CV.encodeAllCost, sip005All]
  | v :: vs => by
    have h1 := encodeCost_le v
    have h2 := encodeAllCost_le vs
    simp only [CV.encodeAllCost, bind_fst, write_fst, write_snd, encodeCost_snd, encodeAllCost_snd, pure_fst,
      sip005All, List.length_append]
    cases he : v.encode with
    | ok e =>
      obtain ⟨_, rfl⟩ := encode_eq_ok.1 he
      simp only []
      cases CV.encodeAll vs <;> simp only [] <;> nlinarith
    | err => simp only []; nlinarith
    | panic => simp only []; nlinarith
theorem encodeEntriesCost_le : (es : List (Str × CV)) →
    (CV.encodeEntriesCost es).1 ≤ (sip005Entries es).length ^ 2 + (sip005Entries es).length
  | [] => by simp [CV.encodeEntriesCost, sip005Entries]
  | (k, v) :: es => by
    have h1 := encodeCost_le v
    have h2 := encodeEntriesCost_le es
    simp only [CV.encodeEntriesCost, bind_fst, write_fst, write_snd, free_fst, free_snd, encodeCost_snd,
      encodeEntriesCost_snd, pure_fst, sip005Entries, List.length_append]
    cases hk : lpsEncode k with
    | ok e =>
      have hl : e.length = (sized8 k).length := by
        rw [(encode_eq_ok (v := .lps k)).1 (show (CV.lps k).encode = .ok e from hk) |>.2, sip005]
      simp only [hl]
      cases he : v.encode with
      | ok e =>
        obtain ⟨_, rfl⟩ := encode_eq_ok.1 he
        simp only []
        cases CV.encodeEntries es <;> simp only [] <;> nlinarith
      | err => simp only []; nlinarith
      | panic => simp only []; nlinarith
    | err => simp only []; nlinarith
    | panic => simp only []; nlinarith
end

/-- What a counting decoder must satisfy at a depth. -/
def Bounded (rec : Bytes → Cost CV) : Prop :=
  ∀ b, (rec b).1 ≤ b.length ^ 3 ∧ ∀ v, (rec b).2 = .ok v → (rec b).1 ≤ (sip005 v).length ^ 3

omit [Hashes] in
theorem cube_add (a b : Nat) : a ^ 3 + a ^ 2 + (b ^ 3 + b ^ 2) ≤ (a + b) ^ 3 + (a + b) ^ 2 := by
  have : (a + b) ^ 3 + (a + b) ^ 2 = a ^ 3 + a ^ 2 + (b ^ 3 + b ^ 2) + (3 * a * b * (a + b) + 2 * a * b) := by ring
  omega

omit [Hashes] in
theorem cube_mono {a b : Nat} (h : a ≤ b) : a ^ 3 + a ^ 2 ≤ b ^ 3 + b ^ 2 :=
  Nat.add_le_add (Nat.pow_le_pow_left h 3) (Nat.pow_le_pow_left h 2)

omit [Hashes] in
theorem cube_room {a b k : Nat} (h : a + k ≤ b) (hk : 1 ≤ k) : a ^ 3 + a ^ 2 ≤ b ^ 3 := by
  refine le_trans ?_ (Nat.pow_le_pow_left (show a + 1 ≤ b by omega) 3)
  have : (a + 1) ^ 3 = a ^ 3 + a ^ 2 + (2 * a ^ 2 + 3 * a + 1) := by ring
  omega

/-- The cost of one element: decoding and encoding again. -/
theorem element_le {rec : Bytes → Cost CV} (hr : Bounded rec) (hs : Sound (fun b => (rec b).2)) {rest : Bytes}
    {v : CV} (hv : (rec rest).2 = .ok v) :
    (rec rest).1 + v.encodeCost.1 ≤ (sip005 v).length ^ 3 + (sip005 v).length ^ 2 ∧
      (sip005 v).length ≤ rest.length := by
  obtain ⟨_, r, h⟩ := hs _ _ hv
  exact ⟨Nat.add_le_add ((hr rest).2 v hv) (encodeCost_le v), by rw [h, List.length_append]; omega⟩

theorem listLoopCost_le {rec : Bytes → Cost CV} (hr : Bounded rec) (hs : Sound (fun b => (rec b).2)) (bytes : Bytes) :
    ∀ (n off : Nat), off ≤ bytes.length →
      (listLoopCost rec bytes n off).1 ≤ (bytes.length - off) ^ 3 + (bytes.length - off) ^ 2 ∧
      ∀ vs, (listLoopCost rec bytes n off).2 = .ok vs →
        (listLoopCost rec bytes n off).1 ≤ (sip005All vs).length ^ 3 + (sip005All vs).length ^ 2 := by
  intro n
  induction n with
  | zero =>
    intro off _
    exact ⟨Nat.zero_le _, fun _ _ => Nat.zero_le _⟩
  | succ n ih =>
    intro off hoff
    have hsl : (sliceFrom bytes off : Outcome Error Bytes) = .ok (bytes.drop off) := sliceFrom_eq_ok.2 ⟨hoff, rfl⟩
    have hlen : (bytes.drop off).length = bytes.length - off := List.length_drop
    rw [listLoopCost, hsl, ok_bind_cost]
    cases hv : (rec (bytes.drop off)).2 with
    | err e =>
      constructor
      · rw [bind_fst, hv]
        have := (hr (bytes.drop off)).1
        rw [hlen] at this
        simp only []; omega
      · intro vs h; rw [bind_snd, hv] at h; cases h
    | panic =>
      constructor
      · rw [bind_fst, hv]
        have := (hr (bytes.drop off)).1
        rw [hlen] at this
        simp only []; omega
      · intro vs h; rw [bind_snd, hv] at h; cases h
    | ok v =>
      obtain ⟨h1, h2⟩ := element_le hr hs hv
      rw [hlen] at h2
      cases he : v.encode with
      | ok e =>
        obtain ⟨_, rfl⟩ := encode_eq_ok.1 he
        obtain ⟨i1, i2⟩ := ih (off + (sip005 v).length) (by omega)
        have hc := cube_add (sip005 v).length (bytes.length - (off + (sip005 v).length))
        have hm := cube_mono (show (sip005 v).length + (bytes.length - (off + (sip005 v).length)) ≤
          bytes.length - off by omega)
        constructor
        · rw [bind_fst, hv]
          simp only []
          rw [bind_fst, encodeCost_snd, he]
          simp only [bind_pure_fst]
          omega
        · intro vs h
          rw [bind_snd, hv, Outcome.ok_bind, bind_snd, encodeCost_snd, he, Outcome.ok_bind, bind_snd,
            Outcome.bind_eq_ok] at h
          obtain ⟨vs', hvs, h⟩ := h
          cases h
          rw [bind_fst, hv]
          simp only []
          rw [bind_fst, encodeCost_snd, he]
          simp only [bind_pure_fst, sip005All, List.length_append]
          have := i2 vs' hvs
          have := cube_add (sip005 v).length (sip005All vs').length
          omega
      | err e =>
        constructor
        · rw [bind_fst, hv]
          simp only []
          rw [bind_fst, encodeCost_snd, he]
          have := cube_mono h2
          simp only []; omega
        · intro vs h
          rw [bind_snd, hv, Outcome.ok_bind, bind_snd, encodeCost_snd, he] at h
          cases h
      | panic =>
        constructor
        · rw [bind_fst, hv]
          simp only []
          rw [bind_fst, encodeCost_snd, he]
          have := cube_mono h2
          simp only []; omega
        · intro vs h
          rw [bind_snd, hv, Outcome.ok_bind, bind_snd, encodeCost_snd, he] at h
          cases h

omit [Hashes] in
/-- A step that writes nothing: either it stops, for nothing, or the rest decides. -/
theorem free_cases {α β : Type} (o : Outcome Error α) (f : α → Cost β) :
    (((free o >>= f).1 = 0 ∧ ∀ b, (free o >>= f).2 ≠ .ok b) ∧ ∀ a, o ≠ .ok a) ∨ ∃ a, o = .ok a ∧ (free o >>= f) = f a := by
  cases o with
  | ok a => exact Or.inr ⟨a, rfl, ok_bind_cost a f⟩
  | err e => exact Or.inl ⟨⟨rfl, fun b h => by cases h⟩, fun a h => by cases h⟩
  | panic => exact Or.inl ⟨⟨rfl, fun b h => by cases h⟩, fun a h => by cases h⟩

theorem tupleLoopCost_le {rec : Bytes → Cost CV} (hr : Bounded rec) (hs : Sound (fun b => (rec b).2)) (bytes : Bytes) :
    ∀ (n off : Nat), off ≤ bytes.length →
      (tupleLoopCost rec bytes n off).1 ≤ (bytes.length - off) ^ 3 + (bytes.length - off) ^ 2 ∧
      ∀ es, (tupleLoopCost rec bytes n off).2 = .ok es →
        (tupleLoopCost rec bytes n off).1 ≤ (sip005Entries es).length ^ 3 + (sip005Entries es).length ^ 2 := by
  intro n
  induction n with
  | zero =>
    intro off _
    exact ⟨Nat.zero_le _, fun _ _ => Nat.zero_le _⟩
  | succ n ih =>
    intro off hoff
    rw [tupleLoopCost]
    rcases free_cases (idx bytes off : Outcome Error UInt8) _ with ⟨⟨h1, h2⟩, _⟩ | ⟨kl, hkl, h⟩
    · exact ⟨h1 ▸ Nat.zero_le _, fun vs h => absurd h (h2 vs)⟩
    rw [h]; clear h
    rcases free_cases (slice bytes (off + 1) (off + 1 + kl.toNat) : Outcome Error Bytes) _ with ⟨⟨h1, h2⟩, _⟩ | ⟨ks, hks, h⟩
    · exact ⟨h1 ▸ Nat.zero_le _, fun vs h => absurd h (h2 vs)⟩
    rw [h]; clear h
    rcases free_cases (stringFromUtf8 ks) _ with ⟨⟨h1, h2⟩, _⟩ | ⟨k, hk, h⟩
    · exact ⟨h1 ▸ Nat.zero_le _, fun vs h => absurd h (h2 vs)⟩
    rw [h]; clear h
    rcases free_cases (sliceFrom bytes (off + (1 + kl.toNat)) : Outcome Error Bytes) _ with ⟨⟨h1, h2⟩, _⟩ | ⟨rest, hrest, h⟩
    · exact ⟨h1 ▸ Nat.zero_le _, fun vs h => absurd h (h2 vs)⟩
    simp only [h]; clear h
    obtain ⟨hle, rfl⟩ := sliceFrom_eq_ok.1 hrest
    have hlen : (bytes.drop (off + (1 + kl.toNat))).length = bytes.length - (off + (1 + kl.toNat)) := List.length_drop
    have hkey : (sized8 k).length = 1 + kl.toNat := by
      rw [slice_eq] at hks
      split at hks
      · cases hks
        rw [stringFromUtf8_eq_ok] at hk
        rw [sized8, List.length_cons, ← hk, List.length_take, List.length_drop]
        omega
      · cases hks
    cases hv : (rec (bytes.drop (off + (1 + kl.toNat)))).2 with
    | err e =>
      constructor
      · rw [bind_fst, hv]
        have := (hr (bytes.drop (off + (1 + kl.toNat)))).1
        rw [hlen] at this
        have := cube_mono (show bytes.length - (off + (1 + kl.toNat)) ≤ bytes.length - off by omega)
        simp only []; omega
      · intro vs h; rw [bind_snd, hv] at h; cases h
    | panic =>
      constructor
      · rw [bind_fst, hv]
        have := (hr (bytes.drop (off + (1 + kl.toNat)))).1
        rw [hlen] at this
        have := cube_mono (show bytes.length - (off + (1 + kl.toNat)) ≤ bytes.length - off by omega)
        simp only []; omega
      · intro vs h; rw [bind_snd, hv] at h; cases h
    | ok v =>
      obtain ⟨h1, h2⟩ := element_le hr hs hv
      rw [hlen] at h2
      have hm2 := cube_mono (show (sip005 v).length ≤ bytes.length - off by omega)
      cases he : v.encode with
      | ok e =>
        obtain ⟨_, rfl⟩ := encode_eq_ok.1 he
        obtain ⟨i1, i2⟩ := ih (off + (1 + kl.toNat) + (sip005 v).length) (by omega)
        have hc := cube_add (sip005 v).length (bytes.length - (off + (1 + kl.toNat) + (sip005 v).length))
        have hm := cube_mono (show (sip005 v).length + (bytes.length - (off + (1 + kl.toNat) + (sip005 v).length)) ≤
          bytes.length - off by omega)
        constructor
        · rw [bind_fst, hv]
          simp only []
          rw [bind_fst, encodeCost_snd, he]
          simp only [bind_pure_fst]
          omega
        · intro vs h
          rw [bind_snd, hv, Outcome.ok_bind, bind_snd, encodeCost_snd, he, Outcome.ok_bind, bind_snd,
            Outcome.bind_eq_ok] at h
          obtain ⟨vs', hvs, h⟩ := h
          cases h
          rw [bind_fst, hv]
          simp only []
          rw [bind_fst, encodeCost_snd, he]
          simp only [bind_pure_fst, sip005Entries, List.length_append]
          have := i2 vs' hvs
          have := cube_add (sip005 v).length (sip005Entries vs').length
          have := cube_mono (show (sip005 v).length + (sip005Entries vs').length ≤
            (sized8 k).length + (sip005 v).length + (sip005Entries vs').length by omega)
          omega
      | err e =>
        constructor
        · rw [bind_fst, hv]
          simp only []
          rw [bind_fst, encodeCost_snd, he]
          simp only []; omega
        · intro vs h
          rw [bind_snd, hv, Outcome.ok_bind, bind_snd, encodeCost_snd, he] at h
          cases h
      | panic =>
        constructor
        · rw [bind_fst, hv]
          simp only []
          rw [bind_fst, encodeCost_snd, he]
          simp only []; omega
        · intro vs h
          rw [bind_snd, hv, Outcome.ok_bind, bind_snd, encodeCost_snd, he] at h
          cases h

omit [Hashes] in
theorem wrapped_bounded {rec : Bytes → Cost CV} (hr : Bounded rec) (r : Bytes) (t : UInt8) (g : CV → CV)
    (hg : ∀ v, (sip005 (g v)).length = (sip005 v).length + 1) :
    (rec r >>= fun v => pure (g v)).1 ≤ (t :: r).length ^ 3 ∧
      ∀ v, (rec r >>= fun v => pure (g v)).2 = .ok v → (rec r >>= fun v => pure (g v)).1 ≤ (sip005 v).length ^ 3 := by
  rw [bind_pure_fst]
  refine ⟨le_trans (hr r).1 (Nat.pow_le_pow_left (by simp) 3), fun v h => ?_⟩
  rw [bind_snd, Outcome.bind_eq_ok] at h
  obtain ⟨w, hw, h⟩ := h
  cases h
  exact le_trans ((hr r).2 w hw) (Nat.pow_le_pow_left (by rw [hg]; omega) 3)

theorem decodeAtCost_le (f : Nat) : Bounded (decodeAtCost .panic f) := by
  induction f with
  | zero => intro b; exact ⟨Nat.zero_le _, fun _ _ => Nat.zero_le _⟩
  | succ f ih =>
    have hs : Sound (fun b => (decodeAtCost .panic f b).2) := by
      have : (fun b => (decodeAtCost .panic f b).2) = decodeAt .panic f := funext (decodeAtCost_snd _ _)
      rw [this]; exact sound f
    intro b
    match b with
    | [] => exact ⟨Nat.zero_le _, fun _ _ => Nat.zero_le _⟩
    | t :: r =>
      rw [stepCost]
      split
      · subst t; rw [show idRespOk = 7 from rfl, wrappedCost_eq]; exact wrapped_bounded ih r _ _ fun v => by simp [sip005]
      split
      · subst t; rw [show idRespErr = 8 from rfl, wrappedCost_eq]; exact wrapped_bounded ih r _ _ fun v => by simp [sip005]
      split
      · subst t; rw [show idSome = 10 from rfl, wrappedCost_eq]; exact wrapped_bounded ih r _ _ fun v => by simp [sip005]
      split
      · subst t
        rw [listDecodeCost, show idList = 11 from rfl, checkId_self, ok_bind_cost, bind_pure_fst]
        rcases free_cases (readLen (11 :: r)) (fun len => listLoopCost (decodeAtCost .panic f) (11 :: r) len 5) with
          ⟨⟨h1, h2⟩, _⟩ | ⟨n, hn, h⟩
        · refine ⟨h1 ▸ Nat.zero_le _, fun v h => ?_⟩
          rw [bind_snd, Outcome.bind_eq_ok] at h
          obtain ⟨w, hw, _⟩ := h
          exact absurd hw (h2 w)
        rw [h]
        obtain ⟨_, r', rfl⟩ := readLen_ok hn
        have hl : 5 ≤ (11 :: (beBytes 4 n ++ r')).length := by simp
        obtain ⟨g1, g2⟩ := listLoopCost_le ih hs (11 :: (beBytes 4 n ++ r')) n 5 hl
        refine ⟨le_trans g1 (cube_room (k := 5) (by omega) (by decide)), fun v h => ?_⟩
        rw [bind_snd, Outcome.bind_eq_ok] at h
        obtain ⟨w, hw, h⟩ := h
        cases h
        exact le_trans (g2 w hw) (cube_room (k := 5) (by simp [sip005]; omega) (by decide))
      split
      · subst t
        rw [tupleDecodeCost, show idTuple = 12 from rfl, checkId_self, ok_bind_cost, bind_pure_fst]
        rcases free_cases (readLen (12 :: r)) (fun len => tupleLoopCost (decodeAtCost .panic f) (12 :: r) len 5) with
          ⟨⟨h1, h2⟩, _⟩ | ⟨n, hn, h⟩
        · refine ⟨h1 ▸ Nat.zero_le _, fun v h => ?_⟩
          rw [bind_snd, Outcome.bind_eq_ok] at h
          obtain ⟨w, hw, _⟩ := h
          exact absurd hw (h2 w)
        rw [h]
        obtain ⟨_, r', rfl⟩ := readLen_ok hn
        have hl : 5 ≤ (12 :: (beBytes 4 n ++ r')).length := by simp
        obtain ⟨g1, g2⟩ := tupleLoopCost_le ih hs (12 :: (beBytes 4 n ++ r')) n 5 hl
        refine ⟨le_trans g1 (cube_room (k := 5) (by omega) (by decide)), fun v h => ?_⟩
        rw [bind_snd, Outcome.bind_eq_ok] at h
        obtain ⟨w, hw, h⟩ := h
        cases h
        exact le_trans (g2 w hw) (cube_room (k := 5) (by simp [sip005]; omega) (by decide))
      · exact ⟨Nat.zero_le _, fun _ _ => Nat.zero_le _⟩

theorem decodeCost_le (b : Bytes) :
    (decodeCost b).1 ≤ b.length ^ 3 ∧ ∀ v, decode b = .ok v → (decodeCost b).1 ≤ (sip005 v).length ^ 3 := by
  obtain ⟨h1, h2⟩ := decodeAtCost_le (b.length + 1) b
  exact ⟨h1, fun v h => h2 v ((decodeCost_snd b).trans h)⟩

theorem fnArgsLoopCost_le : ∀ (n : Nat) (bytes : Bytes),
    (fnArgsLoopCost n bytes).1 ≤ bytes.length ^ 3 + bytes.length ^ 2 := by
  intro n
  induction n with
  | zero => intro _; exact Nat.zero_le _
  | succ n ih =>
    intro bytes
    rw [fnArgsLoopCost, bind_fst, decodeCost_snd]
    cases hv : decode bytes with
    | err e => have := (decodeCost_le bytes).1; simp only []; omega
    | panic => have := (decodeCost_le bytes).1; simp only []; omega
    | ok v =>
      simp only []
      have h1 := (decodeCost_le bytes).2 v hv
      have h3 := encodeCost_le v
      obtain ⟨_, r, rfl⟩ := sound _ _ _ hv
      have hm := cube_mono (show (sip005 v).length ≤ (sip005 v ++ r).length by simp)
      rw [bind_fst, encodeCost_snd]
      cases he : v.encode with
      | err e => simp only []; omega
      | panic => simp only []; omega
      | ok e =>
        obtain ⟨_, rfl⟩ := encode_eq_ok.1 he
        have hsl : (sliceFrom (sip005 v ++ r) (sip005 v).length : Outcome Error Bytes) = .ok r :=
          sliceFrom_append _ _ rfl
        simp only [hsl, ok_bind_cost, bind_pure_fst]
        have := ih r
        have := cube_add (sip005 v).length r.length
        rw [List.length_append]
        rw [List.length_append] at hm
        omega

end

end Stacks.Clarity
