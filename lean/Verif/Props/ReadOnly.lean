import Verif.Props.JsonRead
import Verif.Props.JsonText
import Verif.Props.Reader
import Verif.Spec.ReadOnly

/-! # C113: read-only calls through a node -/

namespace Stacks.Rpc
open Stacks.Spec Stacks.Clarity

/-! ## Paths -/

/-- How one character is sent. -/
def sentChar (escaped : Char → Bool) (c : Char) : Str :=
  if c = '\\' then ['/'] else if escaped c then (Str.bytes [c]).flatMap percent else [c]

theorem percent_slash (b : UInt8) : '/' ∉ percent b := by
  have key : ∀ n < 256, '/' ∉ ['%', (hexDigits.getD (n / 16) '0').toUpper, (hexDigits.getD (n % 16) '0').toUpper] := by
    decide +kernel
  exact key b.toNat b.toNat_lt

theorem percent_read (b : UInt8) : ∃ h l, percent b = ['%', h, l] ∧ hexBytes? [h, l] = some [b.toNat] := by
  have key : ∀ n < 256, hexBytes? [(hexDigits.getD (n / 16) '0').toUpper, (hexDigits.getD (n % 16) '0').toUpper] =
      some [n] := by decide +kernel
  exact ⟨_, _, rfl, key b.toNat b.toNat_lt⟩

theorem segments_ne_nil (s : Str) : segments s ≠ [] := by
  induction s with
  | nil => simp [segments]
  | cons c cs ih =>
    rw [segments]
    cases h : segments cs with
    | nil => exact absurd h ih
    | cons x xs => simp only; split <;> simp

theorem segments_slash (t : Str) : segments ('/' :: t) = [] :: segments t := by
  rw [segments]
  cases h : segments t with
  | nil => exact absurd h (segments_ne_nil t)
  | cons x xs => simp

theorem segments_append {s : Str} (hs : '/' ∉ s) (t : Str) : segments (s ++ '/' :: t) = s :: segments t := by
  induction s with
  | nil => exact segments_slash t
  | cons c cs ih =>
    rw [List.cons_append, segments, ih fun h => hs (List.mem_cons_of_mem _ h)]
    simp only
    rw [if_neg fun e => hs (by simp [e])]

theorem segments_one {s : Str} (hs : '/' ∉ s) : segments s = [s] := by
  induction s with
  | nil => rfl
  | cons c cs ih =>
    rw [segments, ih fun h => hs (List.mem_cons_of_mem _ h)]
    simp only
    rw [if_neg fun e => hs (by simp [e])]

theorem segments_length (s : Str) : (segments s).length = s.count '/' + 1 := by
  induction s with
  | nil => rfl
  | cons c cs ih =>
    rw [segments]
    cases h : segments cs with
    | nil => exact absurd h (segments_ne_nil cs)
    | cons x xs =>
      rw [h, List.length_cons] at ih
      simp only
      split
      · rename_i hc; simp [hc]; omega
      · rename_i hc; simp [hc]; omega

section
variable {escaped : Char → Bool}

theorem slash_sent {s : Str} (h : '/' ∉ s) (h' : '\\' ∉ s) : '/' ∉ s.flatMap (sentChar escaped) := by
  intro hm
  obtain ⟨c, hc, hm⟩ := List.mem_flatMap.1 hm
  unfold sentChar at hm
  rw [if_neg fun e : c = '\\' => h' (e ▸ hc)] at hm
  split at hm
  · obtain ⟨b, -, hb⟩ := List.mem_flatMap.1 hm
    exact percent_slash b hb
  · rw [List.mem_singleton] at hm; exact h (hm ▸ hc)

theorem unescaped_percents (bs : Bytes) (t : Str) :
    unescaped (bs.flatMap percent ++ t) = (unescaped t).map (bs ++ ·) := by
  induction bs with
  | nil => simp
  | cons b bs ih =>
    obtain ⟨h, l, e1, e2⟩ := percent_read b
    rw [List.flatMap_cons, e1, List.append_assoc]
    show unescaped ('%' :: h :: l :: (bs.flatMap percent ++ t)) = _
    rw [unescaped, e2, ih]
    cases unescaped t <;> simp

theorem unescaped_other {c : Char} (hc : c ≠ '%') (t : Str) :
    unescaped (c :: t) = (unescaped t).map (Str.bytes [c] ++ ·) := by
  rw [unescaped]
  · cases unescaped t <;> rfl
  · intro _ _ _ e; exact absurd e hc
  · intro e; exact absurd e hc

theorem bytes_cons (c : Char) (cs : Str) : Str.bytes (c :: cs) = Str.bytes [c] ++ Str.bytes cs := by
  simp [Str.bytes]

theorem unescaped_sent {s : Str} (h : '%' ∉ s) (h' : '\\' ∉ s) :
    unescaped (s.flatMap (sentChar escaped)) = some (Str.bytes s) := by
  induction s with
  | nil => rfl
  | cons c cs ih =>
    have ih := ih (fun hm => h (List.mem_cons_of_mem _ hm)) (fun hm => h' (List.mem_cons_of_mem _ hm))
    rw [List.flatMap_cons, bytes_cons]
    unfold sentChar at ih ⊢
    rw [if_neg fun e => h' (by simp [e])]
    split
    · rw [unescaped_percents, ih]; rfl
    · rw [List.singleton_append, unescaped_other fun e => h (by simp [e]), ih]; rfl

theorem segmentText_sent {s : Str} (h : '%' ∉ s) (h' : '\\' ∉ s) :
    segmentText (s.flatMap (sentChar escaped)) = some s := by
  rw [segmentText, unescaped_sent h h']
  exact fromUtf8_bytes s

end

theorem takeWhile_same {α : Type} {p q : α → Bool} {l : List α} (h : ∀ a ∈ l, p a = q a) :
    l.takeWhile p = l.takeWhile q := by
  induction l with
  | nil => rfl
  | cons a l ih =>
    rw [List.takeWhile_cons, List.takeWhile_cons, h a List.mem_cons_self, ih fun b hb => h b (List.mem_cons_of_mem _ hb)]

/-- Characters that mean something in a URL are not plain. -/
theorem plain_ne {c d : Char} (hc : UrlPlain c) (hd : d ∈ ['/', '?', '#', '%', '\\', '\t', '\n', '\r']) : c ≠ d := by
  rintro rfl
  revert hc hd
  unfold UrlPlain
  intro hc hd
  simp only [List.mem_cons, List.not_mem_nil, or_false] at hd
  rcases hd with rfl | rfl | rfl | rfl | rfl | rfl | rfl | rfl <;> revert hc <;> decide

section
variable [Http] [Hashes] (escaped : Char → Bool) (fl : Http.F64 → Str) (order : List (Str × J) → List (Str × J))

omit [Http] [Hashes] in
/-- The path of a read-only call. -/
theorem path_read_only (hslash : escaped '/' = false) {address contract function : Str} (ha : ∀ c ∈ address, UrlPlain c)
    (hc : ∀ c ∈ contract, UrlPlain c) (hf : ∀ c ∈ function, NameChar c) :
    (segments (sentPath escaped ("/v2/contracts/call-read/".toList ++ address ++ "/".toList ++ contract ++ "/".toList ++
        function))).map segmentText =
      [some [], some "v2".toList, some "contracts".toList, some "call-read".toList, some address, some contract] ++
        (segments ((function.takeWhile (· ≠ '?')).flatMap (sentChar escaped))).map segmentText := by
  have hno : ∀ {s : Str}, (∀ c ∈ s, UrlPlain c) → ∀ d ∈ ['/', '?', '#', '%', '\\', '\t', '\n', '\r'], d ∉ s :=
    fun hs d hd hm => plain_ne (hs d hm) hd rfl
  have hname : ∀ c, NameChar c → ∀ d ∈ ['#', '%', '\\', '\t', '\n', '\r'], c ≠ d := by
    rintro c (h | rfl | rfl) d hd
    · exact plain_ne h (by simp only [List.mem_cons, List.not_mem_nil, or_false] at hd ⊢; tauto)
    · rintro rfl; revert hd; decide
    · rintro rfl; revert hd; decide
  have hall : ∀ c ∈ "/v2/contracts/call-read/".toList ++ address ++ "/".toList ++ contract ++ "/".toList,
      UrlPlain c ∨ c = '/' := by
    intro c hm
    simp only [List.mem_append] at hm
    rcases hm with (((hm | hm) | hm) | hm) | hm
    · revert c; unfold UrlPlain; decide
    · exact .inl (ha c hm)
    · exact .inr (by simpa using hm)
    · exact .inl (hc c hm)
    · exact .inr (by simpa using hm)
  have hpath : sentPath escaped ("/v2/contracts/call-read/".toList ++ address ++ "/".toList ++ contract ++ "/".toList ++
      function) = ("/v2/contracts/call-read/".toList ++ address ++ "/".toList ++ contract ++ "/".toList ++
        function.takeWhile (· ≠ '?')).flatMap (sentChar escaped) := by
    unfold sentPath
    rw [List.filter_eq_self.2, List.takeWhile_append_of_pos]
    · rw [takeWhile_same (q := (· ≠ '?'))]
      · rfl
      · intro c hm
        have := hname c (hf c hm) '#' (by decide)
        simp [this]
    · intro c hm
      rcases hall c hm with h | rfl
      · simp [plain_ne h (d := '?') (by decide), plain_ne h (d := '#') (by decide)]
      · decide
    · intro c hm
      rcases List.mem_append.1 hm with hm | hm
      · rcases hall c hm with h | rfl
        · simp [plain_ne h (d := '\t') (by decide), plain_ne h (d := '\n') (by decide), plain_ne h (d := '\r') (by decide)]
        · decide
      · have h := hname c (hf c hm)
        simp [h '\t' (by decide), h '\n' (by decide), h '\r' (by decide)]
  have hsl : sentChar escaped '/' = ['/'] := by
    unfold sentChar; rw [if_neg (by decide), hslash]; rfl
  have hsplit : "/v2/contracts/call-read/".toList ++ address ++ "/".toList ++ contract ++ "/".toList ++
        function.takeWhile (· ≠ '?') = ([] : Str) ++ '/' :: ("v2".toList ++ '/' :: ("contracts".toList ++ '/' :: ("call-read".toList ++
          '/' :: (address ++ '/' :: (contract ++ '/' :: function.takeWhile (· ≠ '?')))))) := by
    simp only [List.append_assoc]; rfl
  have hplain : ∀ (s t : Str), (∀ c ∈ s, UrlPlain c) →
      (segments ((s ++ '/' :: t).flatMap (sentChar escaped))).map segmentText =
        some s :: (segments (t.flatMap (sentChar escaped))).map segmentText := by
    intro s t hs
    rw [List.flatMap_append, List.flatMap_cons, hsl]
    show (segments (_ ++ '/' :: _)).map _ = _
    rw [segments_append (slash_sent (hno hs '/' (by decide)) (hno hs '\\' (by decide))), List.map_cons,
      segmentText_sent (hno hs '%' (by decide)) (hno hs '\\' (by decide))]
    rfl
  have hlit : ∀ s ∈ ["v2".toList, "contracts".toList, "call-read".toList], ∀ c ∈ s, UrlPlain c := by
    intro s hs c hc
    simp only [List.mem_cons, List.not_mem_nil, or_false] at hs
    unfold UrlPlain
    rcases hs with rfl | rfl | rfl <;> revert c <;> decide
  rw [hpath, hsplit]
  rw [hplain [] _ (fun _ h => absurd h List.not_mem_nil),
    hplain _ _ (hlit _ (by simp)), hplain _ _ (hlit _ (by simp)), hplain _ _ (hlit _ (by simp)), hplain _ _ ha,
    hplain _ _ hc]
  rfl

omit [Http] [Hashes] in
theorem hexArgument_hex (bs : Bytes) : hexArgument (Hex.bytesToHex bs) = some bs := by
  obtain ⟨h1, -, h3⟩ := Hex.C01_hex_roundtrip bs
  unfold hexArgument
  rw [if_neg, ((Hex.C02_hex_decode_exact _).1 bs).1 h1, Option.map_some, List.map_map]
  · congr 1
    conv => rhs; rw [← List.map_id bs]
    exact List.map_congr_left fun b _ => UInt8.ofNat_toNat
  · intro hp
    have := h3 'x' (hp.subset (by decide))
    revert this; decide

omit [Http] in
/-- The arguments a node reads are the ones that were given. -/
theorem arguments_read {args args' : List CV} (h : ∀ a ∈ args, WellFormed a) :
    List.Forall₂ (fun h v => ∃ bs, hexArgument h = some bs ∧ readValue.run bs = some (v, []))
      (args.map fun a => Hex.bytesToHex (sip005 a)) args' ↔ args' = args := by
  induction args generalizing args' with
  | nil => simp
  | cons a as ih =>
    rw [List.map_cons, List.forall₂_cons_left_iff]
    have ha := h a List.mem_cons_self
    have ih' := fun {args'} => @ih args' fun b hb => h b (List.mem_cons_of_mem _ hb)
    constructor
    · rintro ⟨b, bs, ⟨w, h1, h2⟩, h3, rfl⟩
      rw [hexArgument_hex] at h1
      cases h1
      have := (Tx.C43_value_reader (sip005 a) [] a).2 ⟨ha, by simp⟩
      rw [this] at h2
      cases h2
      rw [ih'.1 h3]
    · rintro rfl
      exact ⟨a, as, ⟨_, hexArgument_hex _, (Tx.C43_value_reader (sip005 a) [] a).2 ⟨ha, by simp⟩⟩, ih'.2 rfl, rfl⟩

/-- **C113** What a node is asked by `read_only`, if address and contract have only letters, digits and signs
that mean nothing in a URL and the function is a name in a contract: the part of its name in front of the first
question mark, if it has no slash in it, with the caller's sender and arguments; and otherwise nothing. -/
theorem C113_asked (hslash : escaped '/' = false) (horder : ∀ es, (order es).Perm es) (r : StacksRPC) (server : Request → Reply)
    (address contract function sender : Str) (args : List CV) (hu : '?' ∉ r.url) (hu' : '#' ∉ r.url)
    (ha : ∀ c ∈ address, UrlPlain c) (hc : ∀ c ∈ contract, UrlPlain c) (hf : ∀ c ∈ function, NameChar c)
    (hargs : ∀ a ∈ args, WellFormed a) :
    ∃ q, (r.readOnly server address contract function args sender).sent = [q] ∧ ∀ a, Asks escaped fl order r.url q a ↔
      '/' ∉ function.takeWhile (· ≠ '?') ∧ a = ⟨address, contract, function.takeWhile (· ≠ '?'), sender, args⟩ := by
  have henc : ∀ a ∈ args, Encodable a := fun a h => Clarity.C22_wellFormed_encodable a (hargs a h)
  obtain ⟨q, es, h1, h2, h3⟩ := C94_read_only fl r server address contract function sender args henc
  have hq := (C64_read_only_request r server address contract function sender args).1 henc
  have hpath := path_read_only escaped hslash ha hc hf
  rw [hq] at h1
  cases h1
  refine ⟨_, hq, fun a => ?_⟩
  have hno : ∀ d ∈ ['%', '\\'], d ∉ function.takeWhile (· ≠ '?') := by
    intro d hd hm
    rcases hf d (List.takeWhile_prefix _ |>.subset hm) with h | rfl | rfl
    · exact plain_ne h (d := d) (by simp only [List.mem_cons, List.not_mem_nil, or_false] at hd ⊢; tauto) rfl
    · revert hd; decide
    · revert hd; decide
  constructor
  · rintro ⟨-, ⟨rest, -, -, e1, e2⟩, es1, fs, hs, e3, e5, e6, e7, e8⟩
    simp only [readOnlyRequest, List.append_assoc] at e1
    obtain rfl := List.append_cancel_left e1
    simp only [List.append_assoc] at hpath
    rw [hpath] at e2
    simp only [List.cons_append, List.nil_append, List.cons.injEq, Option.some.injEq, true_and] at e2
    obtain ⟨f1, f2, f3⟩ := e2
    have hn : '/' ∉ function.takeWhile (· ≠ '?') := by
      intro hm
      have hl := congrArg List.length f3
      rw [List.length_map, segments_length] at hl
      have : 0 < ((function.takeWhile (· ≠ '?')).flatMap (sentChar escaped)).count '/' := by
        refine List.count_pos_iff.2 (List.mem_flatMap.2 ⟨_, hm, ?_⟩)
        unfold sentChar; rw [if_neg (by decide), hslash]; exact List.mem_singleton.2 rfl
      simp only [List.length_cons, List.length_nil] at hl
      omega
    rw [segments_one (slash_sent hn (hno _ (by decide))), List.map_cons,
      segmentText_sent (hno _ (by decide)) (hno _ (by decide))] at f3
    have f3 := (List.cons.inj f3).1
    cases e3
    cases h2
    obtain ⟨gs, g1, g2⟩ := h3 _ (horder _)
    cases (g2 _).1 e5
    have s1 : JsonVal.string sender = .string a.sender := (e6 _).1 (g1.mem_iff.2 (by simp))
    have s2 : JsonVal.array (args.map fun a => .string (Hex.bytesToHex (sip005 a))) = .array (hs.map .string) :=
      (e7 _).1 (g1.mem_iff.2 (by simp))
    have s3 : hs = args.map fun a => Hex.bytesToHex (sip005 a) := by
      have := JsonVal.array.inj s2
      rw [show (fun a => JsonVal.string (Hex.bytesToHex (sip005 a))) = JsonVal.string ∘ fun a => Hex.bytesToHex (sip005 a)
        from rfl, ← List.map_map] at this
      exact (List.map_injective_iff.2 (fun x y h => JsonVal.string.inj h) this).symm
    rw [s3] at e8
    refine ⟨hn, ?_⟩
    have f4 := (arguments_read hargs).1 e8
    have f5 := JsonVal.string.inj s1
    cases a
    simp only [Option.some.injEq] at f1 f2 f3 f4 f5
    rw [← f1, ← f2, ← f3, f4, ← f5]
  · rintro ⟨hn, rfl⟩
    cases h2
    obtain ⟨gs, g1, g2⟩ := h3 _ (horder _)
    refine ⟨rfl, ⟨_, hu, hu', by simp only [readOnlyRequest, List.append_assoc]; rfl, ?_⟩, _, gs,
      args.map fun a => Hex.bytesToHex (sip005 a), rfl, (g2 _).2 rfl, fun v => ?_, fun v => ?_,
      (arguments_read hargs).2 rfl⟩
    · simp only [List.append_assoc] at hpath
      rw [hpath, segments_one (slash_sent hn (hno _ (by decide))), List.map_cons,
        segmentText_sent (hno _ (by decide)) (hno _ (by decide))]
      rfl
    · rw [g1.mem_iff]; simp
    · rw [g1.mem_iff]; simp [List.map_map, Function.comp_def]

omit [Hashes] in
/-- **C113** A request is at most one question. -/
theorem C113_one_question [Hashes] (base : Str) (q : Request) (a b : Asked) (ha : Asks escaped fl order base q a)
    (hb : Asks escaped fl order base q b) : a = b := by
  obtain ⟨-, ⟨r, -, -, e1, e2⟩, es, fs, hs, e3, e4, e5, e6, e7⟩ := ha
  obtain ⟨-, ⟨r', -, -, f1, f2⟩, es', fs', hs', f3, f4, f5, f6, f7⟩ := hb
  rw [e1] at f1
  obtain rfl := List.append_cancel_left f1
  rw [e2] at f2
  rw [e3] at f3
  cases f3
  cases C94_unambiguous _ _ _ e4 f4
  have s1 := JsonVal.string.inj ((f5 _).1 ((e5 _).2 rfl))
  have s2 := List.map_injective_iff.2 (fun x y h => JsonVal.string.inj h) (JsonVal.array.inj ((f6 _).1 ((e6 _).2 rfl)))
  subst s2
  have s3 : ∀ {hs : List Str} {xs ys : List CV},
      List.Forall₂ (fun h v => ∃ bs, hexArgument h = some bs ∧ readValue.run bs = some (v, [])) hs xs →
      List.Forall₂ (fun h v => ∃ bs, hexArgument h = some bs ∧ readValue.run bs = some (v, [])) hs ys → xs = ys := by
    intro hs xs ys hx
    induction hx generalizing ys with
    | nil => intro hy; cases hy; rfl
    | cons h1 _ ih =>
      intro hy
      cases hy with
      | cons h2 hy =>
        obtain ⟨w, g1, g2⟩ := h1
        obtain ⟨w', g1', g2'⟩ := h2
        rw [g1] at g1'; cases g1'
        rw [g2] at g2'; cases g2'
        rw [ih hy]
  have s4 := s3 e7 f7
  cases a
  cases b
  simp only [List.cons.injEq, Option.some.injEq, true_and, and_true] at f2 s1 s4 ⊢
  rw [f2.1, f2.2.1, f2.2.2, s1, s4]

variable (hslash : escaped '/' = false) (horder : ∀ es, (order es).Perm es) (bytes : Http.Body → Bytes)
  (float : Str → Option Http.F64) (hp : ∀ body j, Read.body float (bytes body) = some j → Http.parseJson body = .ok j)
  (f : Asked → Except Str CV) (hf : ∀ a v, f a = .ok v → WellFormed v)
include hslash horder hp hf

theorem returns_asked (r : StacksRPC) (server : Request → Reply) (hn : HasContracts escaped fl order bytes float r.url server f)
    (address contract function sender : Str) (args : List CV) (hu : '?' ∉ r.url) (hu' : '#' ∉ r.url)
    (ha : ∀ c ∈ address, UrlPlain c) (hc : ∀ c ∈ contract, UrlPlain c) (hfn : ∀ c ∈ function, NameChar c)
    (hargs : ∀ a ∈ args, WellFormed a) (hsl : '/' ∉ function.takeWhile (· ≠ '?')) :
    Returns (f ⟨address, contract, function.takeWhile (· ≠ '?'), sender, args⟩)
      (r.readOnly server address contract function args sender).result := by
  have henc : ∀ a ∈ args, Encodable a := fun a h => Clarity.C22_wellFormed_encodable a (hargs a h)
  obtain ⟨q, h1, h2⟩ := C113_asked escaped fl order hslash horder r server address contract function sender args hu hu'
    ha hc hfn hargs
  rw [(C64_read_only_request r server address contract function sender args).1 henc] at h1
  cases h1
  obtain ⟨code, j, h3, h4, h5⟩ := hn _ _ ((h2 _).2 ⟨hsl, rfl⟩)
  have h6 := (C105_read_only bytes float hp r server address contract function sender args henc code j h4 h3).1
  unfold Returns
  cases he : f ⟨address, contract, function.takeWhile (· ≠ '?'), sender, args⟩ with
  | error cause =>
    rw [he] at h5
    exact (h6 (.err _)).2 ⟨h5.2, h5.1⟩
  | ok v =>
    rw [he] at h5
    obtain ⟨h, h7, h8⟩ := h5
    refine ⟨h, sip005 v, (h6 (.ok _)).2 h8, h7, ?_⟩
    exact ((Tx.C43_reader_and_decoder (sip005 v) v).1
      ⟨[], (Tx.C43_value_reader _ _ _).2 ⟨hf _ _ he, (List.append_nil _).symm⟩⟩).1

/-- **C113** A function of a contract is called with exactly the caller's sender and arguments, and the caller gets
what it returns, if address, contract and function have only letters, digits and signs that mean nothing in a URL. -/
theorem C113_call (r : StacksRPC) (server : Request → Reply) (hn : HasContracts escaped fl order bytes float r.url server f)
    (address contract function sender : Str) (args : List CV) (hu : '?' ∉ r.url) (hu' : '#' ∉ r.url)
    (ha : ∀ c ∈ address, UrlPlain c) (hc : ∀ c ∈ contract, UrlPlain c) (hfn : ∀ c ∈ function, UrlPlain c)
    (hargs : ∀ a ∈ args, WellFormed a) :
    Returns (f ⟨address, contract, function, sender, args⟩) (r.readOnly server address contract function args sender).result := by
  have := returns_asked escaped fl order hslash horder bytes float hp f hf r server hn address contract function sender
    args hu hu' ha hc (fun c h => .inl (hfn c h)) hargs
  rw [List.takeWhile_eq_self_iff.2 fun c h => by simpa using plain_ne (hfn c h) (d := '?') (by decide)] at this
  exact this fun h => plain_ne (hfn _ h) (d := '/') (by decide) rfl

/-- **C113** If the name of the function has a question mark in it, which names in contracts may have, another function
is called: the one with the name in front of the question mark. Its result is what the caller gets. -/
theorem C113_question_mark (r : StacksRPC) (server : Request → Reply)
    (hn : HasContracts escaped fl order bytes float r.url server f)
    (address contract function rest sender : Str) (args : List CV) (hu : '?' ∉ r.url) (hu' : '#' ∉ r.url)
    (ha : ∀ c ∈ address, UrlPlain c) (hc : ∀ c ∈ contract, UrlPlain c) (hfn : ∀ c ∈ function, UrlPlain c)
    (hr : ∀ c ∈ rest, NameChar c) (hargs : ∀ a ∈ args, WellFormed a) :
    Returns (f ⟨address, contract, function, sender, args⟩)
      (r.readOnly server address contract (function ++ '?' :: rest) args sender).result := by
  have hall : ∀ c ∈ function ++ '?' :: rest, NameChar c := by
    intro c h
    rcases List.mem_append.1 h with h | h
    · exact .inl (hfn c h)
    · rcases List.mem_cons.1 h with rfl | h
      · exact .inr (.inr rfl)
      · exact hr c h
  have := returns_asked escaped fl order hslash horder bytes float hp f hf r server hn address contract
    (function ++ '?' :: rest) sender args hu hu' ha hc hall hargs
  rw [List.takeWhile_append_of_pos fun c h => by simpa using plain_ne (hfn c h) (d := '?') (by decide)] at this
  simp only [List.takeWhile_cons, ne_eq, not_true_eq_false, decide_false, Bool.false_eq_true, if_false,
    List.append_nil] at this
  exact this fun h => plain_ne (hfn _ h) (d := '/') (by decide) rfl

end

section
variable [Http] [Hashes] (escaped : Char → Bool) (fl : Http.F64 → Str) (order : List (Str × J) → List (Str × J))

/-- **C113** If the name of the function has a slash in it (and no question mark before), which names in contracts
may have too, the request is no question at all to the node. -/
theorem C113_slash (hslash : escaped '/' = false) (horder : ∀ es, (order es).Perm es) (r : StacksRPC)
    (server : Request → Reply) (address contract function sender : Str) (args : List CV) (hu : '?' ∉ r.url)
    (hu' : '#' ∉ r.url) (ha : ∀ c ∈ address, UrlPlain c) (hc : ∀ c ∈ contract, UrlPlain c)
    (hf : ∀ c ∈ function, NameChar c) (hargs : ∀ a ∈ args, WellFormed a) (h : '/' ∈ function.takeWhile (· ≠ '?')) :
    ∀ q ∈ (r.readOnly server address contract function args sender).sent, ∀ a, ¬ Asks escaped fl order r.url q a := by
  obtain ⟨q, h1, h2⟩ := C113_asked escaped fl order hslash horder r server address contract function sender args hu hu'
    ha hc hf hargs
  intro q' hq a hq'
  rw [h1, List.mem_singleton] at hq
  subst hq
  exact ((h2 a).1 hq').1 h

omit [Http] [Hashes] in
/-- **C113** The results of nodes begin with `0x`, and texts that do are not hexadecimal to the crate. -/
theorem C113_prefix (h : Str) (bs : Bytes) (hb : Hex.hexToBytes h = .ok bs) :
    Hex.hexToBytes ("0x".toList ++ h) = .err .badChar := by
  refine (Hex.C02_hex_decode_exact _).2.2.1 ?_ rfl
  have h1 : (String.ofList h).utf8ByteSize % 2 ≠ 1 := fun e => by
    rw [(Hex.C02_hex_decode_exact h).2.1 e] at hb; cases hb
  rw [← Str.len_eq_utf8ByteSize] at h1 ⊢
  rw [show "0x".toList ++ h = '0' :: 'x' :: h from rfl]
  simp only [Str.len, Str.bytes, List.flatMap_cons, List.length_append] at h1 ⊢
  have h2 : (String.utf8EncodeChar '0').length = 1 := by decide
  have h3 : (String.utf8EncodeChar 'x').length = 1 := by decide
  omega

/-- **C113** If the URL the crate is given ends in a slash the requests are no questions to the node. -/
theorem C113_trailing_slash (hslash : escaped '/' = false) (base : Str) (server : Request → Reply)
    (address contract function sender : Str) (args : List CV) :
    ∀ q ∈ (StacksRPC.readOnly ⟨base ++ "/".toList⟩ server address contract function args sender).sent, ∀ a,
      ¬ Asks escaped fl order base q a := by
  intro q hq a hqa
  have hs := C64_read_only_request ⟨base ++ "/".toList⟩ server address contract function sender args
  by_cases henc : ∀ a ∈ args, Encodable a
  · rw [hs.1 henc, List.mem_singleton] at hq
    obtain ⟨-, ⟨rest, -, -, e1, e2⟩, -⟩ := hqa
    subst hq
    simp only [readOnlyRequest, List.append_assoc] at e1
    obtain rfl := List.append_cancel_left e1
    have hsl : ∀ t, sentPath escaped ('/' :: t) = '/' :: sentPath escaped t := by
      intro t
      unfold sentPath
      rw [List.filter_cons_of_pos (by decide), List.takeWhile_cons_of_pos (by decide), List.flatMap_cons,
        if_neg (by decide), hslash]
      rfl
    change (segments (sentPath escaped ('/' :: '/' :: _))).map _ = _ at e2
    rw [hsl, hsl, segments_slash, segments_slash, List.map_cons, List.map_cons] at e2
    have e3 := (List.cons.inj (List.cons.inj e2).2).1
    revert e3
    decide
  · rw [(hs.2 henc).1] at hq
    exact absurd hq List.not_mem_nil

/-- Whatever contracts there are, there is a node that has them: the hypothesis of `C113_call` is met. -/
theorem hasContracts_exists (bytes : Http.Body → Bytes) (float : Str → Option Http.F64) (write : Str → Http.Body)
    (hw : ∀ t, bytes (write t) = Str.bytes t) (base : Str) (f : Asked → Except Str CV) :
    ∃ server, HasContracts escaped fl order bytes float base server f := by
  classical
  let answer (a : Asked) : ReadOnlyResponse := match f a with
    | .ok v => .ok ⟨true, "0x".toList ++ Hex.bytesToHex (sip005 v)⟩
    | .error cause => .err ⟨false, cause⟩
  refine ⟨fun q => if h : ∃ a, Asks escaped fl order base q a then .response 200 (write ((answer h.choose).toJson.text fl))
    else .response 404 (write []), fun q a hq => ⟨200, (answer a).toJson, by decide, ?_, ?_⟩⟩
  · have hex : ∃ a, Asks escaped fl order base q a := ⟨a, hq⟩
    beta_reduce
    rw [dif_pos hex, C113_one_question escaped fl order base q _ _ hex.choose_spec hq]
    have hfit : FitsText float fl 127 (answer a).toJson := by
      generalize answer a = r
      cases r <;>
      · refine .obj fun e he => ?_
        simp only [List.mem_cons, List.not_mem_nil, or_false] at he
        rcases he with rfl | rfl
        · exact .bool _
        · exact .str _
    obtain ⟨v, h1, h2⟩ := reads_text hfit
    exact ⟨_, _, v, rfl, hw _, ⟨[], _, [], ws_nil, h2, ws_nil, by simp⟩, h1⟩
  · have h := (readOnly_iff _ _).1 (C91_read_only (answer a))
    cases he : f a with
    | ok v =>
      have ha : answer a = .ok ⟨true, "0x".toList ++ Hex.bytesToHex (sip005 v)⟩ := by simp only [answer, he]
      rw [ha] at h ⊢
      exact ⟨_, ((Hex.C02_hex_decode_exact _).1 _).1 (Hex.C01_hex_roundtrip _).1, h⟩
    | error cause =>
      have ha : answer a = .err ⟨false, cause⟩ := by simp only [answer, he]
      rw [ha] at h ⊢
      exact ⟨h.2, h.1⟩

end

section
attribute [local instance] Concrete.realHashes

/-- Floats as their text. -/
local instance readOnlyHttp : Http where
  Body := Bytes
  IoErr := Unit
  Transport := Unit
  F64 := Str
  intoString b := match fromUtf8 b with
    | some s => .ok s
    | none => .error ()
  parseJson b := match Read.body (F := Str) some b with
    | some j => .ok j
    | none => .error ()
  dataErr := ()
  f64OfNat n := Nat.toDigits 10 n
  f64OfInt i := if i < 0 then '-' :: Nat.toDigits 10 i.natAbs else Nat.toDigits 10 i.natAbs

/-- Some contracts: a token with an owner and a function that says whether somebody is the owner. -/
def someContracts (a : Asked) : Except Str CV :=
  if a.contract = "token".toList then
    if a.function = "owner".toList ∧ a.args = [] then .ok (.uint 7)
    else if a.function = "owner?".toList ∧ a.args = [.uint 7] then .ok .tru
    else .error "NoSuchFunction".toList
  else .error "NoSuchContract".toList

theorem someContracts_wf (a : Asked) (v : CV) (h : someContracts a = .ok v) : WellFormed v := by
  unfold someContracts at h
  split at h
  · split at h
    · cases h; simp [WellFormed]
    · split at h
      · cases h; simp [WellFormed]
      · cases h
  · cases h

/-- C113: a node with these contracts, asked for the owner, and asked with the name of the other function. -/
example : ∃ server, HasContracts (fun c => c = '<') id id (fun b => b) some "http://n".toList server someContracts ∧
    Returns (.ok (.uint 7)) (StacksRPC.readOnly ⟨"http://n".toList⟩ server "ST1".toList "token".toList "owner".toList []
      "ST2".toList).result ∧
    Returns (.ok (.uint 7)) (StacksRPC.readOnly ⟨"http://n".toList⟩ server "ST1".toList "token".toList "owner?".toList []
      "ST2".toList).result ∧
    Returns (.error "NoSuchFunction".toList) (StacksRPC.readOnly ⟨"http://n".toList⟩ server "ST1".toList "token".toList
      "owner?".toList [.uint 7] "ST2".toList).result := by
  have hp : ∀ (body : Http.Body) (j : J), Read.body (F := Str) some body = some j → Http.parseJson body = .ok j := by
    intro body j h
    show (match Read.body (F := Str) some body with | some j => Except.ok j | none => .error ()) = _
    rw [h]
  have hplain : ∀ s ∈ ["ST1".toList, "token".toList, "owner".toList], ∀ c ∈ s, UrlPlain c := by
    intro s hs c hc
    simp only [List.mem_cons, List.not_mem_nil, or_false] at hs
    unfold UrlPlain
    rcases hs with rfl | rfl | rfl <;> revert c <;> decide
  obtain ⟨server, hs⟩ := hasContracts_exists (fun c => c = '<') id id (fun b => b) (some : Str → Option Http.F64)
    (Str.bytes : Str → Http.Body) (fun _ => rfl) "http://n".toList someContracts
  refine ⟨server, hs, ?_, ?_, ?_⟩
  · exact C113_call _ _ _ (by decide) (fun _ => .refl _) _ _ hp _ someContracts_wf _ server hs _ _ _ _ [] (by decide)
      (by decide) (hplain _ (.head _)) (hplain _ (.tail _ (.head _))) (hplain _ (.tail _ (.tail _ (.head _)))) (fun _ h => absurd h List.not_mem_nil)
  · exact C113_question_mark _ _ _ (by decide) (fun _ => .refl _) _ _ hp _ someContracts_wf _ server hs _ _
      "owner".toList [] _ [] (by decide) (by decide) (hplain _ (.head _)) (hplain _ (.tail _ (.head _))) (hplain _ (.tail _ (.tail _ (.head _))))
      (fun _ h => absurd h List.not_mem_nil) (fun _ h => absurd h List.not_mem_nil)
  · exact C113_question_mark _ _ _ (by decide) (fun _ => .refl _) _ _ hp _ someContracts_wf _ server hs _ _
      "owner".toList [] _ [.uint 7] (by decide) (by decide) (hplain _ (.head _)) (hplain _ (.tail _ (.head _))) (hplain _ (.tail _ (.tail _ (.head _))))
      (fun _ h => absurd h List.not_mem_nil) (by intro a ha; cases List.mem_singleton.1 ha; simp [WellFormed])

/-- C113: the path of a call of a function whose name has signs in it that are escaped; and a slash in the name of a
function is one more segment. -/
example : (segments (sentPath (fun c => c ∈ ['<', '>']) "/v2/contracts/call-read/ST1/token/is<=?x".toList)).map segmentText =
      [some [], some "v2".toList, some "contracts".toList, some "call-read".toList, some "ST1".toList, some "token".toList,
        some "is<=".toList] ∧
    sentPath (fun c => c ∈ ['<', '>']) "/token/is<=?x".toList = "/token/is%3C=".toList ∧
    '/' ∈ "a/b?c".toList.takeWhile (· ≠ '?') := by decide +kernel

/-- C113: a result as nodes give it, and its value. -/
example : Hex.hexToBytes "0x03".toList = .err .badChar ∧ Hex.hexToBytes "03".toList = .ok [3] ∧
    Clarity.decode [3] = .ok .tru := by
  refine ⟨?_, by decide +kernel, ?_⟩
  · exact C113_prefix "03".toList [3] (by decide +kernel)
  · exact ((Tx.C43_reader_and_decoder _ _).1 ⟨[], (Tx.C43_value_reader [3] [] .tru).2 ⟨by simp [WellFormed], rfl⟩⟩).1

end

end Stacks.Rpc
