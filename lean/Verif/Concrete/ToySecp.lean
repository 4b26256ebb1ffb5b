import Verif.Spec.Secp
import Verif.Concrete.Ripemd

/-! # A toy signature scheme satisfying `Secp.Lawful`

Used only to show that the hypotheses of theorems are satisfiable and to evaluate examples.
Keys are 32-byte strings, a public key is `2 :: key`, and a "signature" of `m` under `k` is
the pair `k`, `m`; recovery answers the key if the message matches. -/

namespace Stacks.Concrete

@[reducible] def toySecp : Secp where
  SK := Arr 32
  PK := Arr 32
  RSig := Arr 64
  Err := Bool
  pub k := k
  serialize p := ⟨2 :: p.1, by simp [p.2]⟩
  sign m k := ⟨k.1 ++ m.1, by simp [k.2, m.2]⟩
  recover m s := if s.1.drop 32 = m.1 then .ok ⟨s.1.take 32, by simp [s.2]⟩ else .error true
  compact s := (0, s)
  fromCompact bs id :=
    if h : bs.length = 64 ∧ id = 0 then .ok ⟨bs, h.1⟩ else .error false
  invalidRecId := false

attribute [local instance] toySecp in
theorem toyLawful : Secp.Lawful where
  recover_sign m k := by
    obtain ⟨m, hm⟩ := m
    obtain ⟨k, hk⟩ := k
    have h1 : (k ++ m).drop 32 = m := by rw [List.drop_append_of_le_length (by omega), List.drop_of_length_le (by omega)]; rfl
    have h2 : (k ++ m).take 32 = k := by rw [List.take_append_of_le_length (by omega), List.take_of_length_le (by omega)]
    show (if (k ++ m).drop 32 = m then Except.ok _ else _) = _
    rw [if_pos h1]
    congr 1
    exact Subtype.ext h2
  fromCompact_compact s := by
    show (if h : s.1.length = 64 ∧ (0 : Fin 4) = 0 then Except.ok _ else _) = _
    rw [dif_pos ⟨s.2, rfl⟩]
    rfl
  serialize_injective p q h := by
    have h2 : (2 : UInt8) :: p.1 = 2 :: q.1 := congrArg Subtype.val h
    exact Subtype.ext (List.cons.inj h2).2

end Stacks.Concrete
