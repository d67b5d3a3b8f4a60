/-
Independent specification of the string functions of the WHATWG Infra standard, on lists of code points.
-/
namespace Verif.Spec.Infra

/-- ASCII whitespace: TAB, LF, FF, CR, SPACE. -/
def IsWs (c : Nat) : Prop := c ∈ [9, 10, 12, 13, 32]
instance (c : Nat) : Decidable (IsWs c) := by unfold IsWs; infer_instance

/-- CR LF and CR become LF. -/
def normNL : List Nat → List Nat
  | [] => []
  | 13 :: 10 :: s => 10 :: normNL s
  | 13 :: s => 10 :: normNL s
  | c :: s => c :: normNL s

/-- `t` is `s` without its maximal leading and trailing runs of whitespace. -/
def IsTrim (s t : List Nat) : Prop :=
  ∃ l r, s = l ++ t ++ r ∧ (∀ c ∈ l, IsWs c) ∧ (∀ c ∈ r, IsWs c) ∧
    (∀ c, t.head? = some c → ¬ IsWs c) ∧ (∀ c, t.getLast? = some c → ¬ IsWs c) ∧ (t = [] → r = [])

/-- Pieces between separators: one more piece than there are separators. -/
def fields (sep : Nat → Prop) [DecidablePred sep] : List Nat → List (List Nat)
  | [] => [[]]
  | c :: s =>
    if sep c then [] :: fields sep s
    else match fields sep s with
      | [] => [[c]]
      | f :: fs => (c :: f) :: fs

/-- Maximal runs of non-whitespace. -/
def words (s : List Nat) : List (List Nat) := (fields IsWs s).filter (· ≠ [])

/-- Joining pieces with a one-element separator. -/
def join (d : Nat) : List (List Nat) → List Nat
  | [] => []
  | [f] => f
  | f :: fs => f ++ d :: join d fs

/-- Comma separated pieces; a comma at the very end does not open a further piece (Infra "split on commas"). -/
def commaPieces (s : List Nat) : List (List Nat) :=
  let fs := fields (· = 44) s
  if fs.getLast? = some [] then fs.dropLast else fs

/-- Pieces with their trimmed forms. -/
inductive TrimAll : List (List Nat) → List (List Nat) → Prop
  | nil : TrimAll [] []
  | cons {f t fs ts} : IsTrim f t → TrimAll fs ts → TrimAll (f :: fs) (t :: ts)

/-- ASCII lowercase of a code point. -/
def lower (c : Nat) : Nat := if 65 ≤ c ∧ c ≤ 90 then c + 32 else c
/-- ASCII uppercase of a code point. -/
def upper (c : Nat) : Nat := if 97 ≤ c ∧ c ≤ 122 then c - 32 else c

/-- Unicode noncharacters. -/
def IsNonchar (c : Nat) : Prop := (0xFDD0 ≤ c ∧ c ≤ 0xFDEF) ∨ (0xFFFE ≤ c % 0x10000 ∧ c ≤ 0x10FFFF)

end Verif.Spec.Infra
