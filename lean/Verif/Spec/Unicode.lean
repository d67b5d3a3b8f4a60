/-
Independent specification of the Unicode encoding forms (Unicode standard, section 3.9).
-/
namespace Verif.Spec

/-- Unicode scalar values. -/
def IsScalar (c : Nat) : Prop := c < 0xD800 ∨ (0xE000 ≤ c ∧ c ≤ 0x10FFFF)

instance (c : Nat) : Decidable (IsScalar c) := by unfold IsScalar; infer_instance

/-- UTF-8 encoding form of a scalar value. -/
def utf8 (c : Nat) : List Nat :=
  if c < 0x80 then [c]
  else if c < 0x800 then [0xC0 + c / 64, 0x80 + c % 64]
  else if c < 0x10000 then [0xE0 + c / 4096, 0x80 + c / 64 % 64, 0x80 + c % 64]
  else [0xF0 + c / 262144, 0x80 + c / 4096 % 64, 0x80 + c / 64 % 64, 0x80 + c % 64]

/-- UTF-16 encoding form of a scalar value. -/
def utf16 (c : Nat) : List Nat :=
  if c < 0x10000 then [c]
  else [0xD800 + (c - 0x10000) / 1024, 0xDC00 + (c - 0x10000) % 1024]

/-- UTF-32 encoding form. -/
def utf32 (c : Nat) : List Nat := [c]

/-- Encoding form of a string. -/
def utf8s (s : List Nat) : List Nat := s.flatMap utf8
def utf16s (s : List Nat) : List Nat := s.flatMap utf16

end Verif.Spec
