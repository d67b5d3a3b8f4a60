import Verif.Spec.Infra
import Verif.Spec.Percent
import Mathlib.Data.List.Forall2
/-
Addresses in text as in the URL standard.
-/
namespace Verif.Spec.Host
open Verif.Spec.Infra Verif.Spec.Percent

/-- A numeral in a base up to sixteen and its value, any case, leading zeros allowed. -/
inductive Numeral (b : Nat) : List Nat → Nat → Prop
  | one {c v : Nat} : HexDigit c v → v < b → Numeral b [c] v
  | snoc {s : List Nat} {n c v : Nat} : Numeral b s n → HexDigit c v → v < b → Numeral b (s ++ [c]) (n * b + v)

/-- A number of an IPv4 address: `10`, `012` or `0xA`; the flag says that it is not in decimal. -/
inductive V4Number : List Nat → Nat → Bool → Prop
  | dec {s : List Nat} {n : Nat} : Numeral 10 s n → (s = [0x30] ∨ s.head? ≠ some 0x30) → V4Number s n false
  | oct {s : List Nat} {n : Nat} : Numeral 8 s n → V4Number (0x30 :: s) n true
  | hex {x : Nat} {s : List Nat} {n : Nat} : (x = 0x78 ∨ x = 0x58) → Numeral 16 s n → V4Number (0x30 :: x :: s) n true

/-- The parts of an IPv4 address: what stands between dots, without an empty part at the end. -/
def v4Parts (s : List Nat) : List (List Nat) :=
  let f := fields (· = 0x2E) s
  if f.getLast? = some [] ∧ 1 < f.length then f.dropLast else f

/-- The address given by its numbers. -/
def v4Value (ns : List Nat) : Nat :=
  (ns.dropLast.zipIdx.map fun x => x.1 * 256 ^ (3 - x.2)).sum + ns.getLastD 0

/-- Whether the numbers are an address. -/
def V4Fits (ns : List Nat) : Prop := (∀ n ∈ ns.dropLast, n ≤ 255) ∧ ns.getLastD 0 < 256 ^ (5 - ns.length)

/-- Dotted decimal notation. -/
def dotted (n : Nat) : List Nat :=
  join 0x2E [decimal (n / 2 ^ 24), decimal (n / 2 ^ 16 % 256), decimal (n / 2 ^ 8 % 256), decimal (n % 256)]

/-- The lower case hexadecimal numeral of a number. -/
def hex (n : Nat) : List Nat := (Nat.toDigits 16 n).map Char.toNat

/-- A piece of an IPv6 address. -/
def Piece (p : List Nat) (v : Nat) : Prop := Numeral 16 p v ∧ p.length ≤ 4

/-- Pieces of an IPv6 address, the last of which may be an IPv4 address in dotted decimal notation. -/
inductive Pieces : List (List Nat) → List Nat → Prop
  | nil : Pieces [] []
  | cons {p : List Nat} {v : Nat} {ps : List (List Nat)} {vs : List Nat} : Piece p v → Pieces ps vs → Pieces (p :: ps) (v :: vs)
  | quad {n : Nat} : n < 2 ^ 32 → Pieces [dotted n] [n / 2 ^ 16, n % 2 ^ 16]

/-- The text of an IPv6 address. -/
inductive V6 : List Nat → List Nat → Prop
  | full {ps : List (List Nat)} {vs : List Nat} : Pieces ps vs → vs.length = 8 → V6 (join 0x3A ps) vs
  | short {ls rs : List (List Nat)} {l r : List Nat} : List.Forall₂ Piece ls l → Pieces rs r → l.length + r.length ≤ 7 →
      V6 (join 0x3A ls ++ [0x3A, 0x3A] ++ join 0x3A rs) (l ++ List.replicate (8 - l.length - r.length) 0 ++ r)

/-- The number of runs of zeros. -/
def zeroRuns : List Nat → Nat
  | [] => 0
  | [p] => if p = 0 then 1 else 0
  | p :: q :: ps => (if p = 0 ∧ q ≠ 0 then 1 else 0) + zeroRuns (q :: ps)

/-- The canonical text of an IPv6 address: the first longest run of two zeros or more is left out. -/
inductive V6Canonical : List Nat → List Nat → Prop
  | full {a : List Nat} : (¬ ∃ l r, a = l ++ 0 :: 0 :: r) → V6Canonical a (join 0x3A (a.map hex))
  | short {l r : List Nat} {k : Nat} : 2 ≤ k →
      (∀ l' k' r', l ++ List.replicate k 0 ++ r = l' ++ List.replicate k' 0 ++ r' →
        k' ≤ k ∧ (k' = k → l.length ≤ l'.length)) →
      V6Canonical (l ++ List.replicate k 0 ++ r) (join 0x3A (l.map hex) ++ [0x3A, 0x3A] ++ join 0x3A (r.map hex))

/-- The forbidden host code points. -/
def Forbidden (c : Nat) : Prop := c ∈ [0x00, 0x09, 0x0A, 0x0D] ++ codes " #%/:?@[\\]"

instance (c : Nat) : Decidable (Forbidden c) := by unfold Forbidden; infer_instance

end Verif.Spec.Host
