import Verif.Proofs.Literal

/-! # Property C69: the text of a value -/

namespace Stacks.Clarity
open Stacks.Spec

/-- **C69** `to_string` of a value is a literal for it, and the only one. -/
theorem C69_display_is_the_literal (v : CV) (s : Str) : Literal v s ↔ v.display = s :=
  ⟨fun h => (literal_eq v s h).symm, fun h => h ▸ literal_display v⟩

/-- **C69** A literal can be read back: among the values whose strings, names and keys contain no
delimiters, a text is the literal of at most one. -/
theorem C69_literal_unambiguous (v w : CV) (s : Str) (hv : PlainText v) (hw : PlainText w)
    (h1 : Literal v s) (h2 : Literal w s) : v = w := by
  rw [C69_display_is_the_literal] at h1 h2
  exact (display_inj v w hv hw [] [] (.inl rfl) (.inl rfl) (by rw [h1, h2])).1

/-- The value of the second example below. -/
def exText : CV := .tuple [("id".toList, .uint 12), ("who".toList, .optSome (.principalCon "SP1".toList "c".toList)),
  ("l".toList, .list [.int (-3), .buffer [0x0a, 0xff], .strUtf8 "hé".toList])]

example : exText.display =
    "(tuple (id u12) (who (some SP1.c)) (l (list -3 0x0aff u\"hé\")))".toList := by decide +kernel
example : Literal exText
    "(tuple (id u12) (who (some SP1.c)) (l (list -3 0x0aff u\"hé\")))".toList :=
  (C69_display_is_the_literal _ _).2 (by decide +kernel)
example : Literal (.list []) "(list )".toList := (C69_display_is_the_literal _ _).2 (by decide +kernel)
example : Decimal "340282366920938463463374607431768211455".toList (2 ^ 128 - 1) := by
  rw [decimal_iff]; decide +kernel
example : PlainText exText := by
  simp only [exText, PlainText, PlainTextEntries, PlainTextAll, AddressShaped]
  refine ⟨by decide, trivial, by decide, ⟨⟨['P', '1'], rfl, by decide⟩, by decide, by decide, by decide⟩, by decide,
    ⟨trivial, trivial, by decide, trivial⟩, trivial⟩

example := C69_literal_unambiguous (.list [.int (-3), .optNone]) (.list [.int (-3), .optNone]) "(list -3 none)".toList
  ⟨trivial, trivial, trivial⟩ ⟨trivial, trivial, trivial⟩ ((C69_display_is_the_literal _ _).2 (by decide +kernel))
  ((C69_display_is_the_literal _ _).2 (by decide +kernel))

end Stacks.Clarity
