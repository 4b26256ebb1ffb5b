import Verif.Spec.Derive
import Verif.Props.ClarityValue

/-! # Lemmas about `#[derive(FromTuple)]` -/

namespace Stacks.Derive
open Stacks.Spec Stacks.Clarity

/-- The expression generated for each type of field. -/
def extractionOf (struct key : Str) (r : Bool) : FieldType → Extraction
  | .i128 => if r then .response .int "Int".toList key struct else .ifChain [.int] key struct
  | .u128 => if r then .response .uint "UInt".toList key struct else .ifChain [.uint] key struct
  | .bool => .ifChain [.tru, .fls] key struct
  | .string => .display key struct
  | .bytes => .ifChain [.buffer] key struct
  | .strings => .strings key struct "Vec".toList
  | .optI128 => .optionInt .int key struct
  | .optU128 => .optionInt .uint key struct
  | .optString => .optionString key struct
  | .nested name => .nested name key struct

theorem isIdent_iff (c : Bool) (segs : List Segment) (name : Str) :
    isIdent c segs name = true ↔ c = false ∧ segs = [⟨name, .none⟩] := by
  unfold isIdent; simp [Bool.and_eq_true]

theorem parseTypePath_concat (pre : List Segment) (s : Segment) :
    parseTypePath (pre ++ [s]) = match s.args with
      | .angle tokens => some (s.ident, some tokens)
      | .none => some (s.ident, none)
      | .paren => none := by
  unfold parseTypePath; rw [List.getLast?_concat]; rfl

theorem response_iff (r : Option Bool) : (r = some true) ↔ (r == some true) = true := by
  rw [beq_iff_eq]

theorem not_ident (c : Bool) (pre : List Segment) (s : Segment) (name : Str) (h : s ≠ ⟨name, .none⟩) :
    isIdent c (pre ++ [s]) name = false := by
  rw [← Bool.not_eq_true, isIdent_iff]
  rintro ⟨_, h2⟩
  have := congrArg List.getLast? h2
  rw [List.getLast?_concat] at this
  exact h (by simpa using this)

theorem expandField_written (struct : Str) (ty : SynType) (key : Str) (r : Option Bool) (ft : FieldType)
    (h : Written ty ft) : expandField struct ty key r = .ok (extractionOf struct key (r == some true) ft) := by
  cases h with
  | i128 =>
    cases r with
    | none => rfl
    | some b => cases b <;> rfl
  | u128 =>
    cases r with
    | none => rfl
    | some b => cases b <;> rfl
  | bool => rfl
  | string => rfl
  | nested c pre name h =>
    unfold expandField
    have hh : ∀ w ∈ ["i128".toList, "u128".toList, "bool".toList, "String".toList],
        isIdent c (pre ++ [⟨name, .none⟩]) w = false := by
      intro w hw
      rw [← Bool.not_eq_true, isIdent_iff]
      rintro ⟨h1, h2⟩
      have h3 : pre = [] ∧ name = w := by
        cases pre with
        | nil => simpa using h2
        | cons a pre => simp at h2
      exact h h1 h3.1 (h3.2 ▸ hw)
    simp only [hh "i128".toList (by simp), hh "u128".toList (by simp), hh "bool".toList (by simp),
      hh "String".toList (by simp), parseTypePath_concat]
    rfl
  | _ =>
    unfold expandField
    simp only [not_ident _ _ _ _ (show Segment.mk _ (.angle _) ≠ ⟨_, .none⟩ from by simp), parseTypePath_concat]
    rfl

theorem expandField_ok (struct : Str) (ty : SynType) (key : Str) (r : Option Bool) (e : Extraction)
    (h : expandField struct ty key r = .ok e) :
    ∃ ft, Written ty ft ∧ e = extractionOf struct key (r == some true) ft := by
  have hw : ∃ ft, Written ty ft := by
    unfold expandField at h
    split at h
    · cases h
    · next c segs =>
      split at h
      · next hi => obtain ⟨rfl, rfl⟩ := (isIdent_iff _ _ _).1 hi; exact ⟨_, .i128⟩
      · next n1 =>
        split at h
        · next hi => obtain ⟨rfl, rfl⟩ := (isIdent_iff _ _ _).1 hi; exact ⟨_, .u128⟩
        · next n2 =>
          split at h
          · next hi => obtain ⟨rfl, rfl⟩ := (isIdent_iff _ _ _).1 hi; exact ⟨_, .bool⟩
          · next n3 =>
            split at h
            · next hi => obtain ⟨rfl, rfl⟩ := (isIdent_iff _ _ _).1 hi; exact ⟨_, .string⟩
            · next n4 =>
              rcases List.eq_nil_or_concat segs with rfl | ⟨pre, s, rfl⟩
              · cases h
              · rw [List.concat_eq_append] at *
                rw [parseTypePath_concat] at h
                obtain ⟨ident, args⟩ := s
                cases args with
                | paren => cases h
                | none =>
                  refine ⟨_, .nested c pre ident ?_⟩
                  rintro rfl rfl hm
                  simp only [isIdent_iff, List.nil_append, true_and, List.cons.injEq, Segment.mk.injEq, and_true]
                    at n1 n2 n3 n4
                  simp only [List.mem_cons, List.not_mem_nil, or_false] at hm
                  rcases hm with hm | hm | hm | hm
                  · exact n1 hm
                  · exact n2 hm
                  · exact n3 hm
                  · exact n4 hm
                | angle tokens =>
                  simp only [Bool.and_eq_true, beq_iff_eq] at h
                  split at h
                  · next hi => obtain ⟨rfl, rfl⟩ := hi; exact ⟨_, .bytes c pre⟩
                  · split at h
                    · next hi => obtain ⟨rfl, rfl⟩ := hi; exact ⟨_, .strings c pre⟩
                    · split at h
                      · next hi => obtain ⟨rfl, rfl⟩ := hi; exact ⟨_, .optI128 c pre⟩
                      · split at h
                        · next hi => obtain ⟨rfl, rfl⟩ := hi; exact ⟨_, .optU128 c pre⟩
                        · split at h
                          · next hi => obtain ⟨rfl, rfl⟩ := hi; exact ⟨_, .optString c pre⟩
                          · cases h
  obtain ⟨ft, hft⟩ := hw
  refine ⟨ft, hft, ?_⟩
  rw [expandField_written struct ty key r ft hft] at h
  exact (Outcome.ok.inj h).symm

theorem written_unique (ty : SynType) (a b : FieldType) (ha : Written ty a) (hb : Written ty b) : a = b := by
  have h1 := expandField_written [] ty [] none a ha
  rw [expandField_written [] ty [] none b hb] at h1
  have h2 := Outcome.ok.inj h1
  cases a <;> cases b <;> first | rfl | (exact absurd h2 (by decide)) | (cases h2; rfl) | cases h2

theorem first_iff (tuple : List (Str × CV)) (key : Str) (v : CV) :
    FirstUnder tuple key v ↔ tupleGet tuple key = some v := ((C33_get tuple key).1 v).symm

theorem absent_iff (tuple : List (Str × CV)) (key : Str) :
    Absent tuple key ↔ tupleGet tuple key = none := ((C33_get tuple key).2).symm

/-- Running the expression of a field, by the value under its key. -/
theorem run_absent (scope : Scope) (tuple : List (Str × CV)) (struct key : Str) (r : Bool) (ft : FieldType)
    (h : tupleGet tuple key = none) :
    (extractionOf struct key r ft).run scope tuple =
      if ft = .optString then .ok (.optStr none) else .err (.extract key struct) := by
  have he : extract tuple key struct = .err (.extract key struct) := by unfold extract; rw [h]; rfl
  cases ft <;> cases r <;>
    simp only [extractionOf, Extraction.run, he, if_true, if_false, Bool.false_eq_true, reduceCtorEq] <;> rfl

theorem run_i128 (scope : Scope) (tuple : List (Str × CV)) (struct key : Str) (w : CV)
    (h : tupleGet tuple key = some w) :
    (extractionOf struct key false .i128).run scope tuple =
      match (generalizing := false) w with | .int x => .ok (.int x) | _ => .err (.match key struct) := by
  have he : extract tuple key struct = .ok w := by unfold extract; rw [h]; rfl
  show (extract tuple key struct >>= fun value => runIfChain key struct value [.int]) = _
  rw [he]; cases w <;> rfl

theorem run_u128 (scope : Scope) (tuple : List (Str × CV)) (struct key : Str) (w : CV)
    (h : tupleGet tuple key = some w) :
    (extractionOf struct key false .u128).run scope tuple =
      match (generalizing := false) w with | .uint x => .ok (.uint x) | _ => .err (.match key struct) := by
  have he : extract tuple key struct = .ok w := by unfold extract; rw [h]; rfl
  show (extract tuple key struct >>= fun value => runIfChain key struct value [.uint]) = _
  rw [he]; cases w <;> rfl

theorem run_i128_response (scope : Scope) (tuple : List (Str × CV)) (struct key : Str) (w : CV)
    (h : tupleGet tuple key = some w) :
    (extractionOf struct key true .i128).run scope tuple =
      match (generalizing := false) w with
      | .respOk (.int x) => .ok (.int x)
      | .respOk _ => .err (.cast key "Int".toList struct)
      | _ => .err (.cast key "ResponseOk".toList struct) := by
  have he : extract tuple key struct = .ok w := by unfold extract; rw [h]; rfl
  show (extract tuple key struct >>= fun value => _) = _
  rw [he]; cases w with
  | respOk w => cases w <;> rfl
  | _ => rfl

theorem run_u128_response (scope : Scope) (tuple : List (Str × CV)) (struct key : Str) (w : CV)
    (h : tupleGet tuple key = some w) :
    (extractionOf struct key true .u128).run scope tuple =
      match (generalizing := false) w with
      | .respOk (.uint x) => .ok (.uint x)
      | .respOk _ => .err (.cast key "UInt".toList struct)
      | _ => .err (.cast key "ResponseOk".toList struct) := by
  have he : extract tuple key struct = .ok w := by unfold extract; rw [h]; rfl
  show (extract tuple key struct >>= fun value => _) = _
  rw [he]; cases w with
  | respOk w => cases w <;> rfl
  | _ => rfl

theorem run_bool (scope : Scope) (tuple : List (Str × CV)) (struct key : Str) (r : Bool) (w : CV)
    (h : tupleGet tuple key = some w) :
    (extractionOf struct key r .bool).run scope tuple =
      match (generalizing := false) w with | .tru => .ok (.bool true) | .fls => .ok (.bool false) | _ => .err (.match key struct) := by
  have he : extract tuple key struct = .ok w := by unfold extract; rw [h]; rfl
  show (extract tuple key struct >>= fun value => runIfChain key struct value [.tru, .fls]) = _
  rw [he]; cases w <;> rfl

theorem run_string (scope : Scope) (tuple : List (Str × CV)) (struct key : Str) (r : Bool) (w : CV)
    (h : tupleGet tuple key = some w) :
    (extractionOf struct key r .string).run scope tuple = .ok (.str w.display) := by
  have he : extract tuple key struct = .ok w := by unfold extract; rw [h]; rfl
  show (extract tuple key struct >>= fun value => _) = _
  rw [he]; rfl

theorem run_bytes (scope : Scope) (tuple : List (Str × CV)) (struct key : Str) (r : Bool) (w : CV)
    (h : tupleGet tuple key = some w) :
    (extractionOf struct key r .bytes).run scope tuple =
      match (generalizing := false) w with | .buffer bs => .ok (.bytes bs) | _ => .err (.match key struct) := by
  have he : extract tuple key struct = .ok w := by unfold extract; rw [h]; rfl
  show (extract tuple key struct >>= fun value => runIfChain key struct value [.buffer]) = _
  rw [he]; cases w <;> rfl

theorem run_strings (scope : Scope) (tuple : List (Str × CV)) (struct key : Str) (r : Bool) (w : CV)
    (h : tupleGet tuple key = some w) :
    (extractionOf struct key r .strings).run scope tuple =
      match (generalizing := false) w with
      | .list vs => .ok (.strs (vs.map CV.display))
      | _ => .err (.cast key "List".toList "Vec".toList) := by
  have he : extract tuple key struct = .ok w := by unfold extract; rw [h]; rfl
  show (extract tuple key struct >>= fun value => _) = _
  rw [he]; cases w <;> rfl

theorem run_optI128 (scope : Scope) (tuple : List (Str × CV)) (struct key : Str) (r : Bool) (w : CV)
    (h : tupleGet tuple key = some w) :
    (extractionOf struct key r .optI128).run scope tuple =
      match (generalizing := false) w with | .optSome (.int x) => .ok (.optInt (some x)) | _ => .ok (.optInt none) := by
  have he : extract tuple key struct = .ok w := by unfold extract; rw [h]; rfl
  show (extract tuple key struct >>= fun value => _) = _
  rw [he]; cases w with
  | optSome w => cases w <;> rfl
  | _ => rfl

theorem run_optU128 (scope : Scope) (tuple : List (Str × CV)) (struct key : Str) (r : Bool) (w : CV)
    (h : tupleGet tuple key = some w) :
    (extractionOf struct key r .optU128).run scope tuple =
      match (generalizing := false) w with | .optSome (.uint x) => .ok (.optUint (some x)) | _ => .ok (.optUint none) := by
  have he : extract tuple key struct = .ok w := by unfold extract; rw [h]; rfl
  show (extract tuple key struct >>= fun value => _) = _
  rw [he]; cases w with
  | optSome w => cases w <;> rfl
  | _ => rfl

theorem run_optString (scope : Scope) (tuple : List (Str × CV)) (struct key : Str) (r : Bool) (w : CV)
    (h : tupleGet tuple key = some w) :
    (extractionOf struct key r .optString).run scope tuple =
      match (generalizing := false) w with | .optSome v => .ok (.optStr (some v.display)) | _ => .ok (.optStr none) := by
  have he : extract tuple key struct = .ok w := by unfold extract; rw [h]; rfl
  show Outcome.ok (Val.optStr (okOf (extract tuple key struct >>= fun value => _))) = _
  rw [he]; cases w <;> rfl

theorem run_nested (scope : Scope) (tuple : List (Str × CV)) (struct key : Str) (r : Bool) (name : Str) (w : CV)
    (h : tupleGet tuple key = some w) :
    (extractionOf struct key r (.nested name)).run scope tuple =
      match (generalizing := false) w with | .tuple t => scope name t | _ => .err (.cast key "Tuple".toList name) := by
  have he : extract tuple key struct = .ok w := by unfold extract; rw [h]; rfl
  show (extract tuple key struct >>= fun value => _) = _
  rw [he]; cases w <;> rfl

/-- The value of a field is the one the specification gives. -/
theorem run_fits (scope : Scope) (tuple : List (Str × CV)) (struct key : Str) (r : Bool) (ft : FieldType) (v : Val) :
    (extractionOf struct key r ft).run scope tuple = .ok v ↔ Fits scope tuple key r ft v := by
  cases hg : tupleGet tuple key with
  | none =>
    have hF : ∀ u, ¬ FirstUnder tuple key u := by intro u; rw [first_iff, hg]; simp
    rw [run_absent scope tuple struct key r ft hg]
    constructor
    · intro h
      split at h
      · next he => subst he; cases h; exact .noString r fun v => hF _
      · cases h
    · intro h
      cases h <;> first | exact absurd ‹_› (hF _) | rfl
  | some w =>
    have hw : FirstUnder tuple key w := (first_iff _ _ _).2 hg
    have hF : ∀ {u}, FirstUnder tuple key u → w = u := by
      intro u hu; rw [first_iff, hg] at hu; exact Option.some.inj hu
    constructor
    · intro h
      cases ft with
      | i128 =>
        cases r with
        | false =>
          rw [run_i128 _ _ _ _ w hg] at h
          split at h
          · cases h; exact .i128 _ hw
          · cases h
        | true =>
          rw [run_i128_response _ _ _ _ w hg] at h
          split at h
          · cases h; exact .i128Response _ hw
          · cases h
          · cases h
      | u128 =>
        cases r with
        | false =>
          rw [run_u128 _ _ _ _ w hg] at h
          split at h
          · cases h; exact .u128 _ hw
          · cases h
        | true =>
          rw [run_u128_response _ _ _ _ w hg] at h
          split at h
          · cases h; exact .u128Response _ hw
          · cases h
          · cases h
      | bool =>
        rw [run_bool _ _ _ _ _ w hg] at h
        split at h
        · cases h; exact .true _ hw
        · cases h; exact .false _ hw
        · cases h
      | string => rw [run_string _ _ _ _ _ w hg] at h; cases h; exact .string _ _ hw
      | bytes =>
        rw [run_bytes _ _ _ _ _ w hg] at h
        split at h
        · cases h; exact .bytes _ _ hw
        · cases h
      | strings =>
        rw [run_strings _ _ _ _ _ w hg] at h
        split at h
        · cases h; exact .strings _ _ hw
        · cases h
      | optI128 =>
        rw [run_optI128 _ _ _ _ _ w hg] at h
        split at h
        · cases h; exact .someI128 _ _ hw
        · next hn => cases h; exact .noI128 _ _ hw hn
      | optU128 =>
        rw [run_optU128 _ _ _ _ _ w hg] at h
        split at h
        · cases h; exact .someU128 _ _ hw
        · next hn => cases h; exact .noU128 _ _ hw hn
      | optString =>
        rw [run_optString _ _ _ _ _ w hg] at h
        split at h
        · cases h; exact .someString _ _ hw
        · next hn => cases h; exact .noString _ fun v hv => hn v (hF hv)
      | nested name =>
        rw [run_nested _ _ _ _ _ _ w hg] at h
        split at h
        · exact .nested _ _ _ _ hw h
        · cases h
    · intro h
      cases h with
      | i128 x h => rw [run_i128 _ _ _ _ w hg, hF h]
      | u128 x h => rw [run_u128 _ _ _ _ w hg, hF h]
      | i128Response x h => rw [run_i128_response _ _ _ _ w hg, hF h]
      | u128Response x h => rw [run_u128_response _ _ _ _ w hg, hF h]
      | true r h => rw [run_bool _ _ _ _ _ w hg, hF h]
      | false r h => rw [run_bool _ _ _ _ _ w hg, hF h]
      | string r v h => rw [run_string _ _ _ _ _ w hg, hF h]
      | bytes r v h => rw [run_bytes _ _ _ _ _ w hg, hF h]
      | strings r v h => rw [run_strings _ _ _ _ _ w hg, hF h]
      | someI128 r v h => rw [run_optI128 _ _ _ _ _ w hg, hF h]
      | noI128 r v h hv =>
        rw [run_optI128 _ _ _ _ _ w hg, hF h]
        split
        · next x => exact absurd rfl (hv x)
        · rfl
      | someU128 r v h => rw [run_optU128 _ _ _ _ _ w hg, hF h]
      | noU128 r v h hv =>
        rw [run_optU128 _ _ _ _ _ w hg, hF h]
        split
        · next x => exact absurd rfl (hv x)
        · rfl
      | someString r v h => rw [run_optString _ _ _ _ _ w hg, hF h]
      | noString r h =>
        rw [run_optString _ _ _ _ _ w hg]
        split
        · next x => exact absurd hw (h x)
        · rfl
      | nested r name t v h hv => rw [run_nested _ _ _ _ _ _ w hg, hF h]; exact hv

/-- The error of a field is the one the specification gives. -/
theorem run_fails (scope : Scope) (tuple : List (Str × CV)) (struct key : Str) (r : Bool) (ft : FieldType) (e : Error) :
    (extractionOf struct key r ft).run scope tuple = .err e ↔ Fails scope tuple key struct r ft e := by
  cases hg : tupleGet tuple key with
  | none =>
    have hF : ∀ u, ¬ FirstUnder tuple key u := by intro u; rw [first_iff, hg]; simp
    rw [run_absent scope tuple struct key r ft hg]
    constructor
    · intro h
      split at h
      · cases h
      · next hn => cases h; exact .absent r ft ((absent_iff _ _).2 hg) hn
    · intro h
      cases h <;> first | exact absurd ‹_› (hF _) | (rw [if_neg ‹_›])
  | some w =>
    have hw : FirstUnder tuple key w := (first_iff _ _ _).2 hg
    have hF : ∀ {u}, FirstUnder tuple key u → w = u := by
      intro u hu; rw [first_iff, hg] at hu; exact Option.some.inj hu
    have hA : ¬ Absent tuple key := by rw [absent_iff, hg]; simp
    constructor
    · intro h
      cases ft with
      | i128 =>
        cases r with
        | false =>
          rw [run_i128 _ _ _ _ w hg] at h
          split at h
          · cases h
          · next hn => cases h; exact .i128 _ hw hn
        | true =>
          rw [run_i128_response _ _ _ _ w hg] at h
          split at h
          · cases h
          · next v hn => cases h; exact .i128Response _ hw (fun x hx => hn x (by rw [hx]))
          · next hn hn' => cases h; exact .i128NotOk _ hw (fun v hv => hn' v hv)
      | u128 =>
        cases r with
        | false =>
          rw [run_u128 _ _ _ _ w hg] at h
          split at h
          · cases h
          · next hn => cases h; exact .u128 _ hw hn
        | true =>
          rw [run_u128_response _ _ _ _ w hg] at h
          split at h
          · cases h
          · next v hn => cases h; exact .u128Response _ hw (fun x hx => hn x (by rw [hx]))
          · next hn hn' => cases h; exact .u128NotOk _ hw (fun v hv => hn' v hv)
      | bool =>
        rw [run_bool _ _ _ _ _ w hg] at h
        split at h
        · cases h
        · cases h
        · next h1 h2 => cases h; exact .bool _ _ hw ⟨h1, h2⟩
      | string => rw [run_string _ _ _ _ _ w hg] at h; cases h
      | bytes =>
        rw [run_bytes _ _ _ _ _ w hg] at h
        split at h
        · cases h
        · next hn => cases h; exact .bytes _ _ hw hn
      | strings =>
        rw [run_strings _ _ _ _ _ w hg] at h
        split at h
        · cases h
        · next hn => cases h; exact .strings _ _ hw hn
      | optI128 =>
        rw [run_optI128 _ _ _ _ _ w hg] at h
        split at h <;> cases h
      | optU128 =>
        rw [run_optU128 _ _ _ _ _ w hg] at h
        split at h <;> cases h
      | optString =>
        rw [run_optString _ _ _ _ _ w hg] at h
        split at h <;> cases h
      | nested name =>
        rw [run_nested _ _ _ _ _ _ w hg] at h
        split at h
        · exact .nested _ _ _ _ hw h
        · next hn => cases h; exact .notTuple _ _ _ hw hn
    · intro h
      cases h with
      | absent r ty h => exact absurd h hA
      | i128 v h hv =>
        rw [run_i128 _ _ _ _ w hg, hF h]
        split
        · next x => exact absurd rfl (hv x)
        · rfl
      | u128 v h hv =>
        rw [run_u128 _ _ _ _ w hg, hF h]
        split
        · next x => exact absurd rfl (hv x)
        · rfl
      | i128NotOk v h hv =>
        rw [run_i128_response _ _ _ _ w hg, hF h]
        split
        · next x => exact absurd rfl (hv _)
        · next x _ => exact absurd rfl (hv x)
        · rfl
      | u128NotOk v h hv =>
        rw [run_u128_response _ _ _ _ w hg, hF h]
        split
        · next x => exact absurd rfl (hv _)
        · next x _ => exact absurd rfl (hv x)
        · rfl
      | i128Response v h hv =>
        rw [run_i128_response _ _ _ _ w hg, hF h]
        cases v <;> first | rfl | exact absurd rfl (hv _)
      | u128Response v h hv =>
        rw [run_u128_response _ _ _ _ w hg, hF h]
        cases v <;> first | rfl | exact absurd rfl (hv _)
      | bool r v h hv =>
        rw [run_bool _ _ _ _ _ w hg, hF h]
        split
        · exact absurd rfl hv.1
        · exact absurd rfl hv.2
        · rfl
      | bytes r v h hv =>
        rw [run_bytes _ _ _ _ _ w hg, hF h]
        split
        · next x => exact absurd rfl (hv x)
        · rfl
      | strings r v h hv =>
        rw [run_strings _ _ _ _ _ w hg, hF h]
        split
        · next x => exact absurd rfl (hv x)
        · rfl
      | notTuple r name v h hv =>
        rw [run_nested _ _ _ _ _ _ w hg, hF h]
        split
        · next x => exact absurd rfl (hv x)
        · rfl
      | nested r name t e h hv => rw [run_nested _ _ _ _ _ _ w hg, hF h]; exact hv

/-- Only a hand-written `try_from` can panic. -/
theorem run_panic (scope : Scope) (tuple : List (Str × CV)) (struct key : Str) (r : Bool) (ft : FieldType)
    (h : (extractionOf struct key r ft).run scope tuple = .panic) :
    ∃ name t, ft = .nested name ∧ scope name t = .panic := by
  cases hg : tupleGet tuple key with
  | none =>
    rw [run_absent scope tuple struct key r ft hg] at h
    split at h <;> cases h
  | some w =>
    cases ft with
    | nested name =>
      rw [run_nested _ _ _ _ _ _ w hg] at h
      split at h
      · exact ⟨name, _, rfl, h⟩
      · cases h
    | i128 =>
      cases r with
      | false => rw [run_i128 _ _ _ _ w hg] at h; split at h <;> cases h
      | true => rw [run_i128_response _ _ _ _ w hg] at h; split at h <;> cases h
    | u128 =>
      cases r with
      | false => rw [run_u128 _ _ _ _ w hg] at h; split at h <;> cases h
      | true => rw [run_u128_response _ _ _ _ w hg] at h; split at h <;> cases h
    | bool => rw [run_bool _ _ _ _ _ w hg] at h; split at h <;> cases h
    | string => rw [run_string _ _ _ _ _ w hg] at h; cases h
    | bytes => rw [run_bytes _ _ _ _ _ w hg] at h; split at h <;> cases h
    | strings => rw [run_strings _ _ _ _ _ w hg] at h; split at h <;> cases h
    | optI128 => rw [run_optI128 _ _ _ _ _ w hg] at h; split at h <;> cases h
    | optU128 => rw [run_optU128 _ _ _ _ _ w hg] at h; split at h <;> cases h
    | optString => rw [run_optString _ _ _ _ _ w hg] at h; split at h <;> cases h

end Stacks.Derive
