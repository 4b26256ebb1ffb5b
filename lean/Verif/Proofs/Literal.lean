import Verif.Spec.ClarityLiteral
import Verif.Proofs.Display
import Verif.Proofs.Num

/-! # The printer produces exactly the literals -/

namespace Stacks.Clarity
open Stacks.Spec

/-- The value of a decimal digit. -/
def digitVal (c : Char) : Nat := "0123456789".toList.idxOf c

theorem digitVal_digitChar : ∀ d, d < 10 → digitVal d.digitChar = d ∧ d.digitChar ∈ "0123456789".toList ∧
    (d ≠ 0 → d.digitChar ≠ '0') := by decide +kernel

theorem digitVal_table : ∀ c ∈ "0123456789".toList, digitVal c < 10 ∧ (digitVal c).digitChar = c := by
  decide +kernel

theorem decimal_toDigits (n : Nat) : Decimal (Nat.toDigits 10 n) n := by
  refine ⟨Nat.toDigits_ne_nil, ?_⟩
  induction n using Nat.strongRecOn with
  | _ n ih =>
    rw [Nat.toDigits_eq_if (by decide)]
    split
    · rename_i h
      obtain ⟨h1, h2, h3⟩ := digitVal_digitChar n h
      refine ⟨by simpa using h2, ?_, ?_⟩
      · intro h0
        by_cases hn : n = 0
        · subst hn; rfl
        · exact absurd (by simpa using h0) (h3 hn)
      · change numValue 10 [digitVal _] = n
        rw [h1]; simp [numValue]
    · rename_i h
      obtain ⟨h1, h2, h3⟩ := ih (n / 10) (by omega)
      obtain ⟨g1, g2, g3⟩ := digitVal_digitChar (n % 10) (by omega)
      refine ⟨?_, ?_, ?_⟩
      · intro c hc
        rcases List.mem_append.1 hc with hc | hc
        · exact h1 c hc
        · rw [List.mem_singleton.1 hc]; exact g2
      · intro h0
        rw [List.head?_append_of_ne_nil _ Nat.toDigits_ne_nil] at h0
        have := h2 h0
        rw [this] at h3
        simp [numValue] at h3
        omega
      · rw [List.map_append, numValue_append, h3]
        change _ + numValue 10 [digitVal _] = n
        rw [g1]; simp [numValue]; omega

theorem digits_determined {s t : Str} (hs : ∀ c ∈ s, c ∈ "0123456789".toList)
    (ht : ∀ c ∈ t, c ∈ "0123456789".toList) (h : s.map digitVal = t.map digitVal) : s = t := by
  have key : ∀ u : Str, (∀ c ∈ u, c ∈ "0123456789".toList) → (u.map digitVal).map Nat.digitChar = u := by
    intro u hu
    rw [List.map_map]
    conv_rhs => rw [← List.map_id u]
    exact List.map_congr_left (fun c hc => (digitVal_table c (hu c hc)).2)
  rw [← key s hs, h, key t ht]

theorem decimal_digits {s : Str} {n : Nat} (h : Decimal s n) :
    (n = 0 ∧ s = ['0']) ∨ s.map digitVal = numDigits 10 n := by
  obtain ⟨h0, h1, h2, h3⟩ := h
  by_cases hz : s.head? = some '0'
  · have := h2 hz
    subst this
    exact .inl ⟨h3.symm, rfl⟩
  · right
    rw [← h3]
    refine (numDigits_numValue (by decide) ?_ ?_).symm
    · intro d hd
      obtain ⟨c, hc, rfl⟩ := List.mem_map.1 hd
      exact (digitVal_table c (h1 c hc)).1
    · match s, h0 with
      | c :: s, _ =>
        have hc : digitVal c ≠ 0 := by
          intro e
          have := (digitVal_table c (h1 c (by simp))).2
          rw [e] at this
          exact hz (by rw [← this]; rfl)
        change leadingZeros (digitVal c :: _) = 0
        simp [leadingZeros, hc]

theorem decimal_unique {s t : Str} {n : Nat} (hs : Decimal s n) (ht : Decimal t n) : s = t := by
  have hd : ∀ u : Str, Decimal u n → u.map digitVal = numDigits 10 n → n ≠ 0 := by
    rintro u hu h rfl
    simp [numDigits] at h
    exact hu.1 h
  rcases decimal_digits hs with ⟨h1, h2⟩ | h1 <;> rcases decimal_digits ht with ⟨g1, g2⟩ | g1
  · rw [h2, g2]
  · exact absurd h1 (hd t ht g1)
  · exact absurd g1 (hd s hs h1)
  · exact digits_determined hs.2.1 ht.2.1 (h1.trans g1.symm)

theorem decimal_iff {s : Str} {n : Nat} : Decimal s n ↔ s = Nat.toDigits 10 n :=
  ⟨fun h => decimal_unique h (decimal_toDigits n), fun h => h ▸ decimal_toDigits n⟩

theorem signedDecimal_iff {s : Str} {i : Int} : SignedDecimal s i ↔ s = showInt i := by
  unfold SignedDecimal showInt
  by_cases h : i < 0
  · rw [if_pos h]
    constructor
    · rintro (⟨h', _⟩ | ⟨_, t, rfl, ht⟩)
      · omega
      · rw [decimal_iff.1 ht]
    · rintro rfl
      exact .inr ⟨h, _, rfl, decimal_toDigits _⟩
  · rw [if_neg h, decimal_iff]
    constructor
    · rintro (⟨_, h'⟩ | ⟨h', _⟩)
      · exact h'
      · exact absurd h' h
    · rintro rfl
      exact .inl ⟨by omega, rfl⟩

theorem toLower_hexDigits : ∀ c ∈ hexDigits, c.toLower = c := by decide +kernel

theorem hexText_iff {bs : Bytes} {s : Str} :
    ((∀ c ∈ s, c ∈ hexDigits) ∧ hexBytes? s = some (bs.map UInt8.toNat)) ↔ s = Hex.bytesToHex bs := by
  constructor
  · rintro ⟨h1, h2⟩
    have := Hex.C03_hex_reencode s bs ((Hex.hexToBytes_ok_iff s bs).2 h2)
    rw [this]
    conv_lhs => rw [← List.map_id s]
    exact List.map_congr_left (fun c hc => (toLower_hexDigits c (h1 c hc)).symm)
  · rintro rfl
    exact ⟨(Hex.C01_hex_roundtrip bs).2.2, Hex.hexBytes?_bytesToHex bs⟩

theorem spaced_cons (a : Str) (l : List Str) :
    spaced (a :: l) = a ++ (if l.isEmpty then [] else ' ' :: spaced l) := by
  cases l with
  | nil => simp [spaced, List.intercalate]
  | cons b l => simp [spaced, List.intercalate]

/-- The texts of the elements. -/
def texts (vs : List CV) : List Str := vs.map CV.display

/-- The texts of the entries. -/
def entryTexts (es : List (Str × CV)) : List Str :=
  es.map (fun e => "(".toList ++ e.1 ++ " ".toList ++ e.2.display ++ ")".toList)

theorem displayAll_spaced (vs : List CV) : CV.displayAll vs = spaced (texts vs) := by
  induction vs with
  | nil => rfl
  | cons v vs ih =>
    rw [dispAll_cons, ih, show texts (v :: vs) = v.display :: texts vs from rfl, spaced_cons]
    cases vs <;> rfl

theorem displayEntries_spaced (es : List (Str × CV)) : CV.displayEntries es = spaced (entryTexts es) := by
  induction es with
  | nil => rfl
  | cons e es ih =>
    obtain ⟨k, v⟩ := e
    rw [dispEntries_cons, ih, show entryTexts ((k, v) :: es) =
      ("(".toList ++ k ++ " ".toList ++ v.display ++ ")".toList) :: entryTexts es from rfl, spaced_cons]
    cases es <;> simp [entryTexts]

mutual
theorem literal_display : (v : CV) → Literal v v.display
  | .int x => .int (signedDecimal_iff.2 rfl)
  | .uint x => .uint (decimal_toDigits _)
  | .buffer bs => .buffer (hexText_iff.2 rfl).1 (hexText_iff.2 rfl).2
  | .tru => .tru
  | .fls => .fls
  | .principalStd a => .principalStd
  | .principalCon a n => by
    have h := Literal.principalCon (a := a) (n := n)
    rw [List.append_assoc] at h; exact h
  | .respOk v => .ok (literal_display v)
  | .respErr v => .err (literal_display v)
  | .optNone => .none
  | .optSome v => .some (literal_display v)
  | .list vs => by
    have h := Literal.list (literals_display vs)
    rw [← displayAll_spaced] at h; exact h
  | .tuple es => by
    have h := Literal.tuple (bindings_display es)
    rw [← displayEntries_spaced] at h; exact h
  | .strAscii s => .strAscii
  | .strUtf8 s => .strUtf8
  | .lps s => .lps
  | .fnArgs vs => by
    have h := Literal.fnArgs (literals_display vs)
    rw [← displayAll_spaced] at h; exact h
theorem literals_display : (vs : List CV) → Literals vs (texts vs)
  | [] => .nil
  | v :: vs => .cons (literal_display v) (literals_display vs)
theorem bindings_display : (es : List (Str × CV)) → Bindings es (entryTexts es)
  | [] => .nil
  | (_, v) :: es => .cons (literal_display v) (bindings_display es)
end

mutual
theorem literal_eq : (v : CV) → (s : Str) → Literal v s → s = v.display
  | .int x, _, .int h => signedDecimal_iff.1 h
  | .uint x, _, .uint h => by rw [decimal_iff.1 h]; rfl
  | .buffer bs, _, .buffer h1 h2 => by rw [hexText_iff.1 ⟨h1, h2⟩]; rfl
  | .tru, _, .tru => rfl
  | .fls, _, .fls => rfl
  | .principalStd a, _, .principalStd => rfl
  | .principalCon a n, _, .principalCon => by rw [List.append_assoc]; rfl
  | .respOk v, _, .ok h => by rw [literal_eq v _ h]; rfl
  | .respErr v, _, .err h => by rw [literal_eq v _ h]; rfl
  | .optNone, _, .none => rfl
  | .optSome v, _, .some h => by rw [literal_eq v _ h]; rfl
  | .list vs, _, .list h => by rw [literals_eq vs _ h, ← displayAll_spaced]; rfl
  | .tuple es, _, .tuple h => by rw [bindings_eq es _ h, ← displayEntries_spaced]; rfl
  | .strAscii s, _, .strAscii => rfl
  | .strUtf8 s, _, .strUtf8 => rfl
  | .lps s, _, .lps => rfl
  | .fnArgs vs, _, .fnArgs h => by rw [literals_eq vs _ h, ← displayAll_spaced]; rfl
theorem literals_eq : (vs : List CV) → (ss : List Str) → Literals vs ss → ss = texts vs
  | [], _, .nil => rfl
  | v :: vs, _, .cons h1 h2 => by rw [literal_eq v _ h1, literals_eq vs _ h2]; rfl
theorem bindings_eq : (es : List (Str × CV)) → (ss : List Str) → Bindings es ss → ss = entryTexts es
  | [], _, .nil => rfl
  | (_, v) :: es, _, .cons h1 h2 => by rw [literal_eq v _ h1, bindings_eq es _ h2]; rfl
end

end Stacks.Clarity
