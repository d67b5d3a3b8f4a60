/-!
# Specification: ordered forests with named nodes

A forest is empty, or a first tree (name, value, forest of children) followed by the other trees.  Names are positive.
-/
namespace Verif.Spec

inductive Forest (α : Type) where
  | nil
  | cons (id : Nat) (v : α) (kids rest : Forest α)
deriving Repr, DecidableEq

namespace Forest
variable {α : Type}

/-- Nodes in document order (parents before children, siblings left to right). -/
def nodes : Forest α → List (Nat × α)
  | nil => []
  | cons i v k s => (i, v) :: (nodes k ++ nodes s)

/-- Names in document order. -/
def ids : Forest α → List Nat
  | nil => []
  | cons i _ k s => i :: (ids k ++ ids s)

/-- Names of the top-level nodes. -/
def roots : Forest α → List Nat
  | nil => []
  | cons i _ _ s => i :: roots s

/-- Children of the node `q`. -/
def kidsOf : Forest α → Nat → List Nat
  | nil, _ => []
  | cons i _ k s, q => if q = i then roots k else kidsOf k q ++ kidsOf s q

/-- Children of the node `p`, where 0 stands for the place above the top-level nodes. -/
def children (f : Forest α) (p : Nat) : List Nat := if p = 0 then roots f else kidsOf f p

/-- Parent of `x` in a forest whose top-level nodes have the parent `p`. -/
def parentIn : Forest α → Nat → Nat → Option Nat
  | nil, _, _ => none
  | cons i _ k s, p, x => if x = i then some p else (parentIn k i x).or (parentIn s p x)

/-- Parent of `x`, 0 for top-level nodes. -/
def parent? (f : Forest α) (x : Nat) : Option Nat := parentIn f 0 x

/-- Value and children of the node `x`. -/
def find : Forest α → Nat → Option (α × Forest α)
  | nil, _ => none
  | cons i v k s, x => if x = i then some (v, k) else (find k x).or (find s x)

/-- Put the tree `(n, v, k)` before the top-level node `pos`, or at the end if there is none of that name. -/
def insertBefore (pos n : Nat) (v : α) (k : Forest α) : Forest α → Forest α
  | nil => cons n v k nil
  | cons i w c s => if i = pos then cons n v k (cons i w c s) else cons i w c (insertBefore pos n v k s)

/-- Put the tree `(n, v, k)` among the children of the node `p`. -/
def insertUnder (p pos n : Nat) (v : α) (k : Forest α) : Forest α → Forest α
  | nil => nil
  | cons i w c s =>
    cons i w (if i = p then insertBefore pos n v k c else insertUnder p pos n v k c) (insertUnder p pos n v k s)

/-- Put the tree `(n, v, k)` among the children of `p` (0: top level), before `pos` (0: at the end). -/
def insert (p pos n : Nat) (v : α) (k : Forest α) (f : Forest α) : Forest α :=
  if p = 0 then insertBefore pos n v k f else insertUnder p pos n v k f

/-- Remove the tree with the root `x`. -/
def erase (x : Nat) : Forest α → Forest α
  | nil => nil
  | cons i v k s => if i = x then s else cons i v (erase x k) (erase x s)

/-- The top-level nodes with their values. -/
def top : Forest α → List (Nat × α)
  | nil => []
  | cons i v _ s => (i, v) :: top s

/-- The trees under the node `p`, where 0 stands for the place above the top-level nodes. -/
def under (f : Forest α) (p : Nat) : Forest α :=
  if p = 0 then f else match find f p with
    | none => nil
    | some e => e.2

/-- Number of nodes. -/
def size (f : Forest α) : Nat := (ids f).length

/-- The smallest positive number that is no name of `f`. -/
def fresh (f : Forest α) : Nat :=
  (((List.range (size f)).map (· + 1)).find? fun n => n ∉ ids f).getD (size f + 1)

/-- Same shape and values, whatever the names. -/
def alike : Forest α → Forest α → Prop
  | nil, nil => True
  | cons _ v k s, cons _ v' k' s' => v = v' ∧ alike k k' ∧ alike s s'
  | _, _ => False

/-- Operations on the container; a position is a parent (0: top level) and the child before which (0: at the end), a
node is its parent and its name. -/
inductive Op (α : Type) where
  | insert (p pos : Nat) (v : α)
  | erase (p x : Nat)
  | move (p pos q x : Nat)
  | clear

/-- `(p, pos)` is a position of the forest. -/
def IsPos (f : Forest α) (p pos : Nat) : Prop := (p = 0 ∨ p ∈ ids f) ∧ (pos = 0 ∨ pos ∈ children f p)

/-- `x` is a node with the parent `p`. -/
def IsNode (f : Forest α) (p x : Nat) : Prop := (p = 0 ∨ p ∈ ids f) ∧ x ∈ children f p

/-- Proper descendants of `x`. -/
def descendants (f : Forest α) (x : Nat) : List Nat :=
  match find f x with
  | none => []
  | some e => ids e.2

/-- The node `y` lies in the tree with root `x`. -/
def inside (f : Forest α) (x y : Nat) : Prop := y = x ∨ y ∈ descendants f x

instance (f : Forest α) (p pos : Nat) : Decidable (IsPos f p pos) := by unfold IsPos; infer_instance

instance (f : Forest α) (p x : Nat) : Decidable (IsNode f p x) := by unfold IsNode; infer_instance

instance (f : Forest α) (x y : Nat) : Decidable (inside f x y) := by unfold inside; infer_instance

/-- The arguments refer to nodes and positions of the forest. -/
def Op.Ok (f : Forest α) : Op α → Prop
  | .insert p pos _ => IsPos f p pos
  | .erase p x => IsNode f p x
  | .move p pos q x => IsPos f p pos ∧ IsNode f q x
  | .clear => True

instance (f : Forest α) (op : Op α) : Decidable (op.Ok f) := by cases op <;> unfold Op.Ok <;> infer_instance

/-- Moving the tree `x` before a position that is in that tree changes nothing (it throws). -/
def move (p pos x : Nat) (f : Forest α) : Forest α :=
  if inside f x pos ∨ inside f x p then f
  else match find f x with
    | none => f
    | some e => insert p pos x e.1 e.2 (erase x f)

def step (f : Forest α) : Op α → Forest α
  | .insert p pos v => insert p pos (fresh f) v nil f
  | .erase _ x => erase x f
  | .move p pos _ x => move p pos x f
  | .clear => nil

/-- All operations of the history are applied to nodes and positions that exist at that time. -/
def Valid : Forest α → List (Op α) → Prop
  | _, [] => True
  | f, op :: ops => op.Ok f ∧ Valid (step f op) ops

/-- No tree is moved behind the children of one of its own nodes. -/
def Op.Safe (f : Forest α) : Op α → Prop
  | .move p pos _ x => ¬ (pos = 0 ∧ inside f x p)
  | _ => True

instance (f : Forest α) (op : Op α) : Decidable (op.Safe f) := by cases op <;> unfold Op.Safe <;> infer_instance

def SafeAll : Forest α → List (Op α) → Prop
  | _, [] => True
  | f, op :: ops => op.Safe f ∧ SafeAll (step f op) ops

instance decValid : (f : Forest α) → (ops : List (Op α)) → Decidable (Valid f ops)
  | _, [] => isTrue trivial
  | f, op :: ops => by
    unfold Valid
    have := decValid (step f op) ops
    infer_instance

instance decSafeAll : (f : Forest α) → (ops : List (Op α)) → Decidable (SafeAll f ops)
  | _, [] => isTrue trivial
  | f, op :: ops => by
    unfold SafeAll
    have := decSafeAll (step f op) ops
    infer_instance

/-- The largest number of nodes since the last `clear`, `m` before the operation. -/
def peakStep (f : Forest α) (m : Nat) : Op α → Nat
  | .clear => 0
  | op => max m (size (step f op))

def peak : Forest α → Nat → List (Op α) → Nat
  | _, m, [] => m
  | f, m, op :: ops => peak (step f op) (peakStep f m op) ops

def run (ops : List (Op α)) : Forest α := ops.foldl step nil

/-- The last tree, if any, is a single node. -/
def lastLeaf : Forest α → Prop
  | nil => True
  | cons _ _ k nil => k = nil
  | cons _ _ _ (cons i v k s) => lastLeaf (cons i v k s)

/-- Every node with a following sibling has no children or a last child without children. -/
def gentle : Forest α → Prop
  | nil => True
  | cons _ _ k s => (s = nil ∨ lastLeaf k) ∧ gentle k ∧ gentle s

/-- The trees of `f` followed by those of `g`. -/
def append : Forest α → Forest α → Forest α
  | nil, g => g
  | cons i v k s, g => cons i v k (append s g)

/-- The children of the top-level nodes, left to right. -/
def nextLevel : Forest α → Forest α
  | nil => nil
  | cons _ _ k s => append k (nextLevel s)

/-- The levels of the forest, top level first, to depth `n`. -/
def levels : Nat → Forest α → List Nat
  | 0, _ => []
  | n + 1, f => roots f ++ levels n (nextLevel f)

end Forest
end Verif.Spec
