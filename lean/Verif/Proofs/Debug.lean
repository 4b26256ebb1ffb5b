import Verif.Model.Debug
import Verif.Spec.ConditionText
import Verif.Proofs.Display

/-! # The debug text determines plain values and plain post-conditions -/

namespace Stacks.Clarity
open Stacks.Spec

theorem dbg_int (x : BitVec 128) : (CV.int x).debug = "IntCV(".toList ++ (showInt x.toInt ++ [')']) := by
  rw [← List.append_assoc]; rfl
theorem dbg_uint (x : BitVec 128) : (CV.uint x).debug = "UIntCV(".toList ++ (Nat.toDigits 10 x.toNat ++ [')']) := by
  rw [← List.append_assoc]; rfl
theorem dbg_buffer (bs : Bytes) : (CV.buffer bs).debug = "BufferCV(0x".toList ++ (Hex.bytesToHex bs ++ [')']) := by
  rw [← List.append_assoc]; rfl
theorem dbg_tru : CV.tru.debug = "TrueCV".toList := rfl
theorem dbg_fls : CV.fls.debug = "FalseCV".toList := rfl
theorem dbg_none : CV.optNone.debug = "NoneCV".toList := rfl
theorem dbg_std (a : Str) : (CV.principalStd a).debug = "StandardPrincipalCV(".toList ++ (a ++ [')']) := by
  rw [← List.append_assoc]; rfl
theorem dbg_con (a n : Str) :
    (CV.principalCon a n).debug = "ContractPrincipalCV(".toList ++ (a ++ '.' :: (n ++ [')'])) := by
  rw [← List.cons_append, ← List.append_assoc, ← List.append_assoc]; rfl
theorem dbg_ok (v : CV) : (CV.respOk v).debug = "OkCV(".toList ++ (v.debug ++ [')']) := by
  rw [← List.append_assoc]; rfl
theorem dbg_err (v : CV) : (CV.respErr v).debug = "ErrCV(".toList ++ (v.debug ++ [')']) := by
  rw [← List.append_assoc]; rfl
theorem dbg_some (v : CV) : (CV.optSome v).debug = "SomeCV(".toList ++ (v.display ++ [')']) := by
  rw [← List.append_assoc]; rfl
theorem dbg_list (vs : List CV) : (CV.list vs).debug = "ListCV(".toList ++ (CV.debugAll vs ++ [')']) := by
  rw [← List.append_assoc]; rfl
theorem dbg_tuple (es : List (Str × CV)) :
    (CV.tuple es).debug = "TupleCV(".toList ++ (CV.debugEntries es ++ [')']) := by
  rw [← List.append_assoc]; rfl
theorem dbg_ascii (s : Str) : (CV.strAscii s).debug = "StringAsciiCV(".toList ++ (s ++ [')']) := by
  rw [← List.append_assoc]; rfl
theorem dbg_utf8 (s : Str) : (CV.strUtf8 s).debug = "StringUtf8CV(".toList ++ (s ++ [')']) := by
  rw [← List.append_assoc]; rfl
theorem dbg_lps (s : Str) : (CV.lps s).debug = "LengthPrefixedStr(".toList ++ (s ++ [')']) := by
  rw [← List.append_assoc]; rfl
theorem dbg_fnArgs (vs : List CV) : (CV.fnArgs vs).debug = "FnArguments(".toList ++ (CV.debugAll vs ++ [')']) := by
  rw [← List.append_assoc]; rfl
theorem dbgAll_nil : CV.debugAll [] = [] := rfl
theorem dbgAll_cons (v : CV) (vs : List CV) :
    CV.debugAll (v :: vs) = v.debug ++ (if vs.isEmpty then [] else ", ".toList ++ CV.debugAll vs) := rfl
theorem dbgEntries_nil : CV.debugEntries [] = [] := rfl
theorem dbgEntries_cons (k : Str) (v : CV) (es : List (Str × CV)) :
    CV.debugEntries ((k, v) :: es) = k ++ ": ".toList ++ v.debug ++
      (if es.isEmpty then [] else ", ".toList ++ CV.debugEntries es) := rfl

attribute [local irreducible] CV.debug CV.debugAll CV.debugEntries CV.display

local macro "dbg" "at" h:ident : tactic => `(tactic| simp [dbg_int, dbg_uint, dbg_buffer, dbg_tru, dbg_fls, dbg_none,
  dbg_std, dbg_con, dbg_ok, dbg_err, dbg_some, dbg_list, dbg_tuple, dbg_ascii, dbg_utf8, dbg_lps, dbg_fnArgs] at $h:ident)

theorem debug_not_paren (v : CV) (r t : Str) : v.debug ++ r ≠ ')' :: t := by
  intro h
  cases v <;> dbg at h

theorem paren_notMem_showInt (i : Int) : ')' ∉ showInt i := by
  intro h
  rcases showInt_chars h with h | h
  · exact absurd h (by decide)
  · exact absurd h (by decide)

theorem char_notMem_digits {c : Char} (n : Nat) (hc : c.isDigit = false) : c ∉ Nat.toDigits 10 n := fun h => by
  have := digits_isDigit h
  rw [hc] at this; exact absurd this (by decide)

theorem paren_notMem_hex (bs : Bytes) : ')' ∉ Hex.bytesToHex bs := fun h => (hex_tok h).2.1 rfl

mutual
theorem debug_inj : (v w : CV) → PlainDebug v → PlainDebug w → ∀ r1 r2,
    v.debug ++ r1 = w.debug ++ r2 → v = w ∧ r1 = r2 := by
  intro v w pv pw r1 r2 h
  cases v with
  | int x =>
    cases w with
    | int y =>
      have h' : showInt x.toInt ++ ')' :: r1 = showInt y.toInt ++ ')' :: r2 := by dbg at h; exact h
      obtain ⟨e, rfl⟩ := split_at_char (paren_notMem_showInt _) (paren_notMem_showInt _) h'
      exact ⟨by rw [BitVec.eq_of_toInt_eq (showInt_inj e)], rfl⟩
    | _ => dbg at h
  | uint x =>
    cases w with
    | uint y =>
      have h' : Nat.toDigits 10 x.toNat ++ ')' :: r1 = Nat.toDigits 10 y.toNat ++ ')' :: r2 := by dbg at h; exact h
      obtain ⟨e, rfl⟩ := split_at_char (char_notMem_digits _ (by decide)) (char_notMem_digits _ (by decide)) h'
      exact ⟨by rw [BitVec.eq_of_toNat_eq (digits_inj e)], rfl⟩
    | _ => dbg at h
  | buffer x =>
    cases w with
    | buffer y =>
      have h' : Hex.bytesToHex x ++ ')' :: r1 = Hex.bytesToHex y ++ ')' :: r2 := by dbg at h; exact h
      obtain ⟨e, rfl⟩ := split_at_char (paren_notMem_hex _) (paren_notMem_hex _) h'
      exact ⟨by rw [hex_inj e], rfl⟩
    | _ => dbg at h
  | tru =>
    cases w with
    | tru => exact ⟨rfl, List.append_cancel_left h⟩
    | _ => dbg at h
  | fls =>
    cases w with
    | fls => exact ⟨rfl, List.append_cancel_left h⟩
    | _ => dbg at h
  | optNone =>
    cases w with
    | optNone => exact ⟨rfl, List.append_cancel_left h⟩
    | _ => dbg at h
  | principalStd x =>
    cases w with
    | principalStd y =>
      have h' : x ++ ')' :: r1 = y ++ ')' :: r2 := by dbg at h; exact h
      obtain ⟨rfl, rfl⟩ := split_at_char pv pw h'
      exact ⟨rfl, rfl⟩
    | _ => dbg at h
  | principalCon x n =>
    cases w with
    | principalCon y m =>
      have h' : x ++ '.' :: (n ++ ')' :: r1) = y ++ '.' :: (m ++ ')' :: r2) := by dbg at h; exact h
      obtain ⟨rfl, e⟩ := split_at_char pv.1 pw.1 h'
      obtain ⟨rfl, rfl⟩ := split_at_char pv.2.2 pw.2.2 e
      exact ⟨rfl, rfl⟩
    | _ => dbg at h
  | respOk x =>
    cases w with
    | respOk y =>
      have h' : x.debug ++ ')' :: r1 = y.debug ++ ')' :: r2 := by dbg at h; exact h
      obtain ⟨rfl, e⟩ := debug_inj x y pv pw _ _ h'
      exact ⟨rfl, (List.cons.inj e).2⟩
    | _ => dbg at h
  | respErr x =>
    cases w with
    | respErr y =>
      have h' : x.debug ++ ')' :: r1 = y.debug ++ ')' :: r2 := by dbg at h; exact h
      obtain ⟨rfl, e⟩ := debug_inj x y pv pw _ _ h'
      exact ⟨rfl, (List.cons.inj e).2⟩
    | _ => dbg at h
  | optSome x =>
    cases w with
    | optSome y =>
      have h' : x.display ++ ')' :: r1 = y.display ++ ')' :: r2 := by dbg at h; exact h
      obtain ⟨rfl, e⟩ := display_inj x y pv pw _ _ (.inr (.inr ⟨_, rfl⟩)) (.inr (.inr ⟨_, rfl⟩)) h'
      exact ⟨rfl, (List.cons.inj e).2⟩
    | _ => dbg at h
  | list x =>
    cases w with
    | list y =>
      have h' : CV.debugAll x ++ ')' :: r1 = CV.debugAll y ++ ')' :: r2 := by dbg at h; exact h
      obtain ⟨rfl, e⟩ := debugAll_inj x y pv pw _ _ h'
      exact ⟨rfl, e⟩
    | _ => dbg at h
  | fnArgs x =>
    cases w with
    | fnArgs y =>
      have h' : CV.debugAll x ++ ')' :: r1 = CV.debugAll y ++ ')' :: r2 := by dbg at h; exact h
      obtain ⟨rfl, e⟩ := debugAll_inj x y pv pw _ _ h'
      exact ⟨rfl, e⟩
    | _ => dbg at h
  | tuple x =>
    cases w with
    | tuple y =>
      have h' : CV.debugEntries x ++ ')' :: r1 = CV.debugEntries y ++ ')' :: r2 := by dbg at h; exact h
      obtain ⟨rfl, e⟩ := debugEntries_inj x y pv pw _ _ h'
      exact ⟨rfl, e⟩
    | _ => dbg at h
  | strAscii x =>
    cases w with
    | strAscii y =>
      have h' : x ++ ')' :: r1 = y ++ ')' :: r2 := by dbg at h; exact h
      obtain ⟨rfl, rfl⟩ := split_at_char pv pw h'
      exact ⟨rfl, rfl⟩
    | _ => dbg at h
  | strUtf8 x =>
    cases w with
    | strUtf8 y =>
      have h' : x ++ ')' :: r1 = y ++ ')' :: r2 := by dbg at h; exact h
      obtain ⟨rfl, rfl⟩ := split_at_char pv pw h'
      exact ⟨rfl, rfl⟩
    | _ => dbg at h
  | lps x =>
    cases w with
    | lps y =>
      have h' : x ++ ')' :: r1 = y ++ ')' :: r2 := by dbg at h; exact h
      obtain ⟨rfl, rfl⟩ := split_at_char pv pw h'
      exact ⟨rfl, rfl⟩
    | _ => dbg at h
termination_by v => sizeOf v
theorem debugAll_inj : (vs ws : List CV) → PlainDebugAll vs → PlainDebugAll ws → ∀ r1 r2,
    CV.debugAll vs ++ ')' :: r1 = CV.debugAll ws ++ ')' :: r2 → vs = ws ∧ r1 = r2
  | [], [], _, _, r1, r2, h => by simpa [dbgAll_nil] using h
  | [], w :: ws, _, _, r1, r2, h => by
    rw [dbgAll_nil, dbgAll_cons, List.append_assoc] at h
    exact absurd h.symm (debug_not_paren _ _ _)
  | v :: vs, [], _, _, r1, r2, h => by
    rw [dbgAll_nil, dbgAll_cons, List.append_assoc] at h
    exact absurd h (debug_not_paren _ _ _)
  | v :: vs, w :: ws, pv, pw, r1, r2, h => by
    rw [dbgAll_cons, dbgAll_cons, List.append_assoc, List.append_assoc] at h
    obtain ⟨rfl, e⟩ := debug_inj v w pv.1 pw.1 _ _ h
    have ih := debugAll_inj vs ws pv.2 pw.2 r1 r2
    match vs, ws, ih, e with
    | [], [], _, e => simpa using e
    | [], _ :: _, _, e => simp at e
    | _ :: _, [], _, e => simp at e
    | a :: vs, b :: ws, ih, e =>
      have e' : CV.debugAll (a :: vs) ++ ')' :: r1 = CV.debugAll (b :: ws) ++ ')' :: r2 := by
        simpa using e
      obtain ⟨e1, rfl⟩ := ih e'
      rw [e1]; exact ⟨rfl, rfl⟩
termination_by vs => sizeOf vs
theorem debugEntries_inj : (es fs : List (Str × CV)) → PlainDebugEntries es → PlainDebugEntries fs →
    ∀ r1 r2, CV.debugEntries es ++ ')' :: r1 = CV.debugEntries fs ++ ')' :: r2 → es = fs ∧ r1 = r2
  | [], [], _, _, r1, r2, h => by simpa [dbgEntries_nil, dbgEntries_cons] using h
  | [], (k, w) :: ws, _, pw, r1, r2, h => by
    match k, pw.1.2 with
    | [], _ => simp [dbgEntries_nil, dbgEntries_cons] at h
    | c :: k, hk =>
      simp [dbgEntries_nil, dbgEntries_cons] at h
      exact absurd h.1 (fun e => hk (e ▸ List.mem_cons_self))
  | (k, v) :: vs, [], pv, _, r1, r2, h => by
    match k, pv.1.2 with
    | [], _ => simp [dbgEntries_nil, dbgEntries_cons] at h
    | c :: k, hk =>
      simp [dbgEntries_nil, dbgEntries_cons] at h
      exact absurd h.1 (fun e => hk (e ▸ List.mem_cons_self))
  | (k, v) :: vs, (l, w) :: ws, pv, pw, r1, r2, h => by
    have h1 : k ++ ':' :: (' ' :: (v.debug ++ ((if vs.isEmpty then [] else ", ".toList ++ CV.debugEntries vs) ++ ')' :: r1))) =
        l ++ ':' :: (' ' :: (w.debug ++ ((if ws.isEmpty then [] else ", ".toList ++ CV.debugEntries ws) ++ ')' :: r2))) := by
      simpa [dbgEntries_nil, dbgEntries_cons] using h
    obtain ⟨rfl, h2⟩ := split_at_char pv.1.1 pw.1.1 h1
    obtain ⟨rfl, e⟩ := debug_inj v w pv.2.1 pw.2.1 _ _ (List.cons.inj h2).2
    have ih := debugEntries_inj vs ws pv.2.2 pw.2.2 r1 r2
    match vs, ws, ih, e with
    | [], [], _, e => simpa using e
    | [], _ :: _, _, e => simp at e
    | _ :: _, [], _, e => simp at e
    | a :: vs, b :: ws, ih, e =>
      have e' : CV.debugEntries (a :: vs) ++ ')' :: r1 = CV.debugEntries (b :: ws) ++ ')' :: r2 := by
        simpa using e
      obtain ⟨e1, rfl⟩ := ih e'
      rw [e1]; exact ⟨rfl, rfl⟩
termination_by es => sizeOf es
end

end Stacks.Clarity

namespace Stacks.Tx
open Stacks.Clarity Stacks.Spec

attribute [local irreducible] CV.debug

/-- The code is followed by a comma or a space. -/
theorem code_inj (c d : ConditionCode) (x y : Char) (r1 r2 : Str) (hx : x = ' ' ∨ x = ',') (hy : y = ' ' ∨ y = ',')
    (h : c.debug ++ x :: r1 = d.debug ++ y :: r2) : c = d ∧ x :: r1 = y :: r2 := by
  cases c <;> cases d <;> rcases hx with rfl | rfl <;> rcases hy with rfl | rfl <;>
    simp [ConditionCode.debug] at h ⊢ <;> exact h

theorem append7 (a b c d e f g r : Str) :
    a ++ b ++ c ++ d ++ e ++ f ++ g ++ r = a ++ (b ++ (c ++ (d ++ (e ++ (f ++ (g ++ r)))))) := by
  simp only [List.append_assoc]

theorem append9 (a b c d e f g x y r : Str) : a ++ b ++ c ++ d ++ e ++ f ++ g ++ x ++ y ++ r =
    a ++ (b ++ (c ++ (d ++ (e ++ (f ++ (g ++ (x ++ (y ++ r)))))))) := by
  simp only [List.append_assoc]

theorem asset_debug (i : AssetInfo) (r : Str) : i.debug ++ r =
    "AssetInfo { address: ".toList ++ ((CV.principalStd i.address).debug ++ (", name: ".toList ++ ((CV.lps i.name).debug ++
      (", asset: ".toList ++ ((CV.lps i.asset).debug ++ (" }".toList ++ r)))))) := by
  exact append7 ..

theorem stx_debug (a : CV) (x : UInt64) (k : ConditionCode) (r : Str) : (Condition.stx a x k).debug ++ r =
    "STXPostCondition { address: ".toList ++ (a.debug ++ (", amount: ".toList ++ (Nat.toDigits 10 x.toNat ++
      (", code: ".toList ++ (k.debug ++ (" }".toList ++ r)))))) := by
  exact append7 ..

theorem fungible_debug (a : CV) (x : UInt64) (k : ConditionCode) (i : AssetInfo) (r : Str) :
    (Condition.fungible a x k i).debug ++ r =
    "FungiblePostCondition { address: ".toList ++ (a.debug ++ (", amount: ".toList ++ (Nat.toDigits 10 x.toNat ++
      (", code: ".toList ++ (k.debug ++ (", info: ".toList ++ (i.debug ++ (" }".toList ++ r)))))))) := by
  exact append9 ..

theorem nonFungible_debug (a x : CV) (k : ConditionCode) (i : AssetInfo) (r : Str) :
    (Condition.nonFungible a x k i).debug ++ r =
    "NonFungiblePostCondition { address: ".toList ++ (a.debug ++ (", name: ".toList ++ (x.debug ++
      (", code: ".toList ++ (k.debug ++ (", info: ".toList ++ (i.debug ++ (" }".toList ++ r)))))))) := by
  exact append9 ..

attribute [local irreducible] AssetInfo.debug Condition.debug ConditionCode.debug

theorem asset_inj (i j : AssetInfo) (pi : PlainAsset i) (pj : PlainAsset j) (r1 r2 : Str)
    (h : i.debug ++ r1 = j.debug ++ r2) : i = j ∧ r1 = r2 := by
  rw [asset_debug, asset_debug] at h
  obtain ⟨e1, h1⟩ := debug_inj (.principalStd i.address) (.principalStd j.address) pi.1 pj.1 _ _
    (List.append_cancel_left h)
  obtain ⟨e2, h2⟩ := debug_inj (.lps i.name) (.lps j.name) pi.2.1 pj.2.1 _ _ (List.append_cancel_left h1)
  obtain ⟨e3, h3⟩ := debug_inj (.lps i.asset) (.lps j.asset) pi.2.2 pj.2.2 _ _ (List.append_cancel_left h2)
  injection e1 with e1
  injection e2 with e2
  injection e3 with e3
  refine ⟨?_, List.append_cancel_left h3⟩
  clear h h1 h2 h3
  cases i
  cases j
  simp_all

theorem amount_inj (x y : UInt64) (r1 r2 : Str)
    (h : Nat.toDigits 10 x.toNat ++ (", code: ".toList ++ r1) = Nat.toDigits 10 y.toNat ++ (", code: ".toList ++ r2)) :
    x = y ∧ r1 = r2 := by
  obtain ⟨e, h⟩ := split_at_char (q := ',') (char_notMem_digits _ (by decide)) (char_notMem_digits _ (by decide)) h
  exact ⟨UInt64.toNat_inj.1 (digits_inj e), by simpa using h⟩

theorem code_inj_close (k l : ConditionCode) (r1 r2 : Str) (h : k.debug ++ (" }".toList ++ r1) = l.debug ++ (" }".toList ++ r2)) :
    k = l ∧ r1 = r2 := by
  obtain ⟨e, h⟩ := code_inj k l ' ' ' ' ('}' :: r1) ('}' :: r2) (.inl rfl) (.inl rfl) h
  exact ⟨e, by simpa using h⟩

theorem code_inj_info (k l : ConditionCode) (r1 r2 : Str)
    (h : k.debug ++ (", info: ".toList ++ r1) = l.debug ++ (", info: ".toList ++ r2)) : k = l ∧ r1 = r2 := by
  obtain ⟨e, h⟩ := code_inj k l ',' ',' (" info: ".toList ++ r1) (" info: ".toList ++ r2) (.inr rfl) (.inr rfl) h
  exact ⟨e, by simpa using h⟩

theorem condition_debug_inj (c d : Condition) (pc : PlainCondition c) (pd : PlainCondition d) (r1 r2 : Str)
    (h : c.debug ++ r1 = d.debug ++ r2) : c = d ∧ r1 = r2 := by
  match c, d with
  | .stx a x k, .stx b y l =>
    rw [stx_debug, stx_debug] at h
    obtain ⟨e, h⟩ := debug_inj a b pc pd _ _ (List.append_cancel_left h)
    obtain ⟨e', h⟩ := amount_inj _ _ _ _ (List.append_cancel_left h)
    obtain ⟨e'', h⟩ := code_inj_close k l _ _ h
    exact ⟨by rw [e, e', e''], h⟩
  | .fungible a x k i, .fungible b y l j =>
    rw [fungible_debug, fungible_debug] at h
    obtain ⟨e, h⟩ := debug_inj a b pc.1 pd.1 _ _ (List.append_cancel_left h)
    obtain ⟨e', h⟩ := amount_inj _ _ _ _ (List.append_cancel_left h)
    obtain ⟨e'', h⟩ := code_inj_info k l _ _ h
    obtain ⟨e3, h⟩ := asset_inj i j pc.2 pd.2 _ _ h
    exact ⟨by rw [e, e', e'', e3], List.append_cancel_left h⟩
  | .nonFungible a x k i, .nonFungible b y l j =>
    rw [nonFungible_debug, nonFungible_debug] at h
    obtain ⟨e, h⟩ := debug_inj a b pc.1 pd.1 _ _ (List.append_cancel_left h)
    obtain ⟨e', h⟩ := debug_inj x y pc.2.1 pd.2.1 _ _ (List.append_cancel_left h)
    obtain ⟨e'', h⟩ := code_inj_info k l _ _ (List.append_cancel_left h)
    obtain ⟨e3, h⟩ := asset_inj i j pc.2.2 pd.2.2 _ _ h
    exact ⟨by rw [e, e', e'', e3], List.append_cancel_left h⟩
  | .stx .., .fungible .. => rw [stx_debug, fungible_debug] at h; simp at h
  | .stx .., .nonFungible .. => rw [stx_debug, nonFungible_debug] at h; simp at h
  | .fungible .., .stx .. => rw [stx_debug, fungible_debug] at h; simp at h
  | .fungible .., .nonFungible .. => rw [fungible_debug, nonFungible_debug] at h; simp at h
  | .nonFungible .., .stx .. => rw [stx_debug, nonFungible_debug] at h; simp at h
  | .nonFungible .., .fungible .. => rw [fungible_debug, nonFungible_debug] at h; simp at h

theorem condition_debug_not_bracket (c : Condition) (r t : Str) : c.debug ++ r ≠ ']' :: t := by
  cases c <;> simp [stx_debug, fungible_debug, nonFungible_debug]

theorem conditionsDebugAll_inj : (cs ds : List Condition) → (∀ c ∈ cs, PlainCondition c) →
    (∀ d ∈ ds, PlainCondition d) → ∀ r1 r2,
    conditionsDebugAll cs ++ ']' :: r1 = conditionsDebugAll ds ++ ']' :: r2 → cs = ds ∧ r1 = r2
  | [], [], _, _, r1, r2, h => by simpa [conditionsDebugAll] using h
  | [], d :: ds, _, _, r1, r2, h => by
    rw [conditionsDebugAll, conditionsDebugAll, List.append_assoc] at h
    exact absurd h.symm (condition_debug_not_bracket _ _ _)
  | c :: cs, [], _, _, r1, r2, h => by
    rw [conditionsDebugAll, conditionsDebugAll, List.append_assoc] at h
    exact absurd h (condition_debug_not_bracket _ _ _)
  | c :: cs, d :: ds, pc, pd, r1, r2, h => by
    rw [conditionsDebugAll, conditionsDebugAll, List.append_assoc, List.append_assoc] at h
    obtain ⟨rfl, e⟩ := condition_debug_inj c d (pc c (by simp)) (pd d (by simp)) _ _ h
    have ih := conditionsDebugAll_inj cs ds (fun x hx => pc x (by simp [hx])) (fun x hx => pd x (by simp [hx])) r1 r2
    match cs, ds, ih, e with
    | [], [], _, e => simpa using e
    | [], _ :: _, _, e => simp at e
    | _ :: _, [], _, e => simp at e
    | a :: cs, b :: ds, ih, e =>
      have e' : conditionsDebugAll (a :: cs) ++ ']' :: r1 = conditionsDebugAll (b :: ds) ++ ']' :: r2 := by
        simpa using e
      obtain ⟨e1, rfl⟩ := ih e'
      rw [e1]; exact ⟨rfl, rfl⟩

theorem postConditionsDisplay_inj (cs ds : List Condition) (pc : ∀ c ∈ cs, PlainCondition c)
    (pd : ∀ d ∈ ds, PlainCondition d) (h : postConditionsDisplay cs = postConditionsDisplay ds) : cs = ds :=
  (conditionsDebugAll_inj cs ds pc pd [] [] (by simpa [postConditionsDisplay] using h)).1

end Stacks.Tx
