import Verif.Model.Legacy
import Verif.Spec.Unicode
/-
Bytes as the Encoding Standard describes them, for the properties of all decoders.
-/
namespace Verif.Spec
open Verif.Model.Legacy

/-- The bytes end inside an escape sequence of three bytes: ESC `$` or ESC `(`. -/
def EndsInEscape (b : List Nat) : Prop := ∃ a, b = a ++ [0x1B, 0x24] ∨ b = a ++ [0x1B, 0x28]

/-- A four-byte sequence of gb18030 whose pointer stands for a code point above U+10000. -/
def Beyond (b1 b2 b3 b4 : Nat) : Prop :=
  0x81 ≤ b1 ∧ b1 ≤ 0xFE ∧ 0x30 ≤ b2 ∧ b2 ≤ 0x39 ∧ 0x81 ≤ b3 ∧ b3 ≤ 0xFE ∧ 0x30 ≤ b4 ∧ b4 ≤ 0x39 ∧
    189000 < (b1 - 0x81) * 12600 + (b2 - 0x30) * 1260 + (b3 - 0x81) * 10 + (b4 - 0x30) ∧
    (b1 - 0x81) * 12600 + (b2 - 0x30) * 1260 + (b3 - 0x81) * 10 + (b4 - 0x30) ≤ 1237575

/-- Such a sequence occurs in the bytes. -/
def HasBeyond (b : List Nat) : Prop := ∃ a b1 b2 b3 b4 c, b = a ++ b1 :: b2 :: b3 :: b4 :: c ∧ Beyond b1 b2 b3 b4

/-- The encoding and the bytes behind the byte order mark, if there is one. -/
inductive Sniffed (name : Enc) : List Nat → Enc → List Nat → Prop
  | utf8 (b : List Nat) : Sniffed name (0xEF :: 0xBB :: 0xBF :: b) .UTF_8 b
  | utf16be (b : List Nat) : Sniffed name (0xFE :: 0xFF :: b) .UTF_16BE b
  | utf16le (b : List Nat) : Sniffed name (0xFF :: 0xFE :: b) .UTF_16LE b
  | none (b : List Nat) : ¬ [0xEF, 0xBB, 0xBF] <+: b → ¬ [0xFE, 0xFF] <+: b → ¬ [0xFF, 0xFE] <+: b → Sniffed name b name b

end Verif.Spec
