import Verif.Spec.Unicode
/-
Independent specification of decoding with error reports. A decoder's report is a list of `some c` (a code point)
and `none` (one decoding error).
-/
namespace Verif.Spec

/-- `p` starts some well-formed UTF-8 sequence. -/
def Utf8Starts (p : List Nat) : Prop := ∃ c, IsScalar c ∧ p <+: utf8 c

/-- `p` is the maximal subpart of the ill-formed sequence at the front of `b` (Unicode standard, D93b): nothing well-formed
starts at the front of `b`; `p` is one byte or an initial part of something well-formed; and no longer front part of `b`
is an initial part of something well-formed. -/
def MaximalSubpart (p b : List Nat) : Prop :=
  p <+: b ∧ p ≠ [] ∧ (¬ ∃ c, IsScalar c ∧ utf8 c <+: b) ∧ (p.length = 1 ∨ Utf8Starts p) ∧
    ∀ q, q <+: b → p.length < q.length → ¬ Utf8Starts q

/-- Reports of UTF-8 decoding: well-formed sequences give their code points, every maximal subpart gives one error. -/
inductive Utf8Decodes : List Nat → List (Option Nat) → Prop
  | nil : Utf8Decodes [] []
  | good {c : Nat} {b : List Nat} {o : List (Option Nat)} :
      IsScalar c → Utf8Decodes b o → Utf8Decodes (utf8 c ++ b) (some c :: o)
  | bad {p b : List Nat} {o : List (Option Nat)} :
      MaximalSubpart p (p ++ b) → Utf8Decodes b o → Utf8Decodes (p ++ b) (none :: o)

/-- The code points of a report. -/
def points (o : List (Option Nat)) : List Nat := o.filterMap id

/-- A report with every error replaced by U+FFFD. -/
def replaced (o : List (Option Nat)) : List Nat := o.map fun x => x.getD 0xFFFD

/-- Bytes of a sequence of UTF-16 code units. -/
def utf16Bytes (be : Bool) (us : List Nat) : List Nat :=
  us.flatMap fun u => if be then [u / 256, u % 256] else [u % 256, u / 256]

/-- Reports of UTF-16 decoding: surrogate pairs and other code units give code points, an unpaired surrogate gives one
error and takes only itself. -/
inductive Utf16Decodes : List Nat → List (Option Nat) → Prop
  | nil : Utf16Decodes [] []
  | good {c : Nat} {us : List Nat} {o : List (Option Nat)} :
      IsScalar c → Utf16Decodes us o → Utf16Decodes (utf16 c ++ us) (some c :: o)
  | lead {u : Nat} {us : List Nat} {o : List (Option Nat)} : 0xD800 ≤ u → u ≤ 0xDBFF →
      (∀ v vs, us = v :: vs → ¬ (0xDC00 ≤ v ∧ v ≤ 0xDFFF)) → Utf16Decodes us o → Utf16Decodes (u :: us) (none :: o)
  | trail {u : Nat} {us : List Nat} {o : List (Option Nat)} : 0xDC00 ≤ u → u ≤ 0xDFFF →
      Utf16Decodes us o → Utf16Decodes (u :: us) (none :: o)

end Verif.Spec
