/-!
# Specification: finite maps from byte strings to numbers, and operation histories
-/
namespace Verif.Spec.KeyMap

/-- A finite map, newest entry first; keys occur once. -/
abbrev KMap := List (List Nat × Nat)

def get (m : KMap) (k : List Nat) : Option Nat := (m.find? fun e => e.1 = k).map Prod.snd

/-- Operations of the public interface. -/
inductive Op where
  | insert (k : List Nat) (v : Nat)
  | erase (k : List Nat)
  | set (k : List Nat) (v : Nat)
  | clear

/-- What a user expects: inserting the empty string or a present key does nothing, writing to an
absent key does nothing (it throws), erasing removes exactly that key. -/
def step (m : KMap) : Op → KMap
  | .insert k v => if k = [] ∨ (get m k).isSome = true then m else (k, v) :: m
  | .erase k => m.filter fun e => e.1 ≠ k
  | .set k v => m.map fun e => if e.1 = k then (k, v) else e
  | .clear => []

def run (ops : List Op) : KMap := ops.foldl step []

/-- `p` is a proper prefix of the stored key `k`, and `k` is the only stored key that properly
extends `p`. -/
def lone (m : KMap) (p k : List Nat) : Prop :=
  p ≠ k ∧ p <+: k ∧ (get m k).isSome = true ∧ ∀ e ∈ m, p <+: e.1 → e.1 ≠ p → e.1 = k

instance (m : KMap) (p k : List Nat) : Decidable (lone m p k) := by unfold lone; infer_instance

/-- What `trie_base::erase` does instead: the value of a key whose only extension is the erased
key is lost as well. -/
def eraseLossy (m : KMap) (k : List Nat) : KMap :=
  (m.filter fun e => e.1 ≠ k).map fun e => if lone m e.1 k then (e.1, 0) else e

/-- `step` with the lossy `erase`. -/
def stepLossy (m : KMap) : Op → KMap
  | .erase k => eraseLossy m k
  | op => step m op

def runLossy (ops : List Op) : KMap := ops.foldl stepLossy []

/-- Keys are byte strings and values fit in a non-negative `int32_t`. -/
def Op.Ok : Op → Prop
  | .insert k v => (∀ b ∈ k, b < 256) ∧ v ≤ 2147483647
  | .erase k => ∀ b ∈ k, b < 256
  | .set k v => (∀ b ∈ k, b < 256) ∧ v ≤ 2147483647
  | .clear => True

end Verif.Spec.KeyMap
