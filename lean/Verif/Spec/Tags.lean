import Verif.Spec.Forest

/-!
# Specification: forests written as tags

A node is named by its start tag; its value carries the name of its end tag, 0 for a node that has none (and never has
children).  All tags together have different positive names.
-/
namespace Verif.Spec.Tags
open Verif.Spec Verif.Spec.Forest
variable {α : Type}

abbrev TF (α : Type) := Forest (α × Nat)

inductive Tag (α : Type) where
  | single (i : Nat) (v : α)
  | start (i : Nat) (v : α) (e : Nat)
  | stop (e i : Nat)
deriving Repr, DecidableEq

/-- The forest in serial form: a node without end tag is one tag, any other its start tag, its children, its end tag. -/
def script : TF α → List (Tag α)
  | .nil => []
  | .cons i x k s =>
    if x.2 = 0 then .single i x.1 :: script s else .start i x.1 x.2 :: (script k ++ .stop x.2 i :: script s)

def Tag.name : Tag α → Nat
  | .single i _ => i
  | .start i _ _ => i
  | .stop e _ => e

/-- Names of all tags in serial order. -/
def names : TF α → List Nat
  | .nil => []
  | .cons i x k s => i :: (if x.2 = 0 then names s else names k ++ x.2 :: names s)

/-- The smallest positive number that is not in the list. -/
def smallest (l : List Nat) : Nat :=
  (((List.range l.length).map (· + 1)).find? fun n => n ∉ l).getD (l.length + 1)

/-- End tag of the node `p`, 0 for the place above the top-level nodes and for nodes without end tag. -/
def close (f : TF α) (p : Nat) : Nat :=
  if p = 0 then 0 else match find f p with
    | none => 0
    | some e => e.1.2

/-- The position before the child `pos` of `p`, or (0) behind the children of `p`, as the name of the next tag. -/
def place (f : TF α) (p pos : Nat) : Nat := if pos = 0 then close f p else pos

/-- `(p, pos)` is a position: `p` may have children and `pos` is one of them or 0. -/
def IsPos (f : TF α) (p pos : Nat) : Prop := (p = 0 ∨ p ∈ ids f ∧ close f p ≠ 0) ∧ (pos = 0 ∨ pos ∈ children f p)

instance (f : TF α) (p pos : Nat) : Decidable (IsPos f p pos) := by unfold IsPos; infer_instance

/-- What follows `x` in a list, 0 at the end. -/
def after (x : Nat) : List Nat → Nat
  | [] => 0
  | a :: l => if a = x then l.headD 0 else after x l

/-- The position `(p, pos)` is where the tree `x` is: before it or right behind it. -/
def Stays (f : TF α) (p pos x : Nat) : Prop := pos = x ∨ x ∈ children f p ∧ pos = after x (children f p)

instance (f : TF α) (p pos x : Nat) : Decidable (Stays f p pos x) := by unfold Stays; infer_instance

/-- The arguments refer to nodes and positions of the forest; a tree is not moved into itself. -/
def Ok (f : TF α) : Op α → Prop
  | .insert p pos _ => IsPos f p pos
  | .erase p x => IsNode f p x
  | .move p pos q x => IsPos f p pos ∧ IsNode f q x ∧ ¬ inside f x p
  | .clear => True

instance (f : TF α) (op : Op α) : Decidable (Ok f op) := by cases op <;> unfold Ok <;> infer_instance

/-- No tree is moved to where it already is. -/
def Safe (f : TF α) : Op α → Prop
  | .move p pos _ x => ¬ Stays f p pos x
  | _ => True

instance (f : TF α) (op : Op α) : Decidable (Safe f op) := by cases op <;> unfold Safe <;> infer_instance

/-- Put a tree before or behind where it is: nothing changes; elsewhere it is taken out and put there. -/
def step (single : α → Bool) (f : TF α) : Op α → TF α
  | .insert p pos v =>
    let n := smallest (names f)
    Forest.insert p pos n (v, if single v then 0 else smallest (n :: names f)) .nil f
  | .erase _ x => Forest.erase x f
  | .move p pos _ x => Forest.move p pos x f
  | .clear => .nil

def Valid (single : α → Bool) : TF α → List (Op α) → Prop
  | _, [] => True
  | f, op :: ops => Ok f op ∧ Valid single (step single f op) ops

def SafeAll (single : α → Bool) : TF α → List (Op α) → Prop
  | _, [] => True
  | f, op :: ops => Safe f op ∧ SafeAll single (step single f op) ops

instance decValid (single : α → Bool) : (f : TF α) → (ops : List (Op α)) → Decidable (Valid single f ops)
  | _, [] => isTrue trivial
  | f, op :: ops => by
    unfold Valid
    have := decValid single (step single f op) ops
    infer_instance

instance decSafeAll (single : α → Bool) : (f : TF α) → (ops : List (Op α)) → Decidable (SafeAll single f ops)
  | _, [] => isTrue trivial
  | f, op :: ops => by
    unfold SafeAll
    have := decSafeAll single (step single f op) ops
    infer_instance

def run (single : α → Bool) (ops : List (Op α)) : TF α := ops.foldl (step single) .nil

/-- The texts of the text nodes, in document order. -/
def texts {β : Type} (text : α → Option (List β)) (f : TF α) : List (List β) := (nodes f).filterMap fun e => text e.2.1

end Verif.Spec.Tags
