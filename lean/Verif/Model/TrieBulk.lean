import Verif.Model.TrieBase

/-!
# Model of the bulk `trie_base::assign`

Sources: `/repo/include/wordring/trie/trie_base.hpp` 202-240, `list_trie_iterator.hpp`, `trie_construct_iterator.hpp`.

A `const_list_trie_iterator` is the list of strings `[m_first, m_last)` and `depth = m_level + 1` (0 at the root).
Moving behind `m_last` and dereferencing gives `none`.
-/
namespace Verif.Model.Trie

/-- `const_list_trie_iterator`, list_trie_iterator.hpp 241-246; the cache `m_next` only saves time. -/
structure LIt where
  seg : List (List Nat)
  depth : Nat

/-- `lv + 1 == it->size()` followed by `++it`, list_trie_iterator.hpp 144 and 184. -/
def skipEnd (depth : Nat) : List (List Nat) → List (List Nat)
  | [] => []
  | s :: ss => if s.length = depth then ss else s :: ss

/-- Loop of `next()`, list_trie_iterator.hpp 232-237. -/
def nextLoop (lv ch : Nat) : List (List Nat) → Option (List (List Nat))
  | [] => some []
  | s :: ss => (s[lv]?).bind fun c => if ch ≠ c then some (s :: ss) else nextLoop lv ch ss

/-- `if (it->size() <= lv) ++it`, list_trie_iterator.hpp 85 and 229; `m_first` is dereferenced. -/
def skipShort (lv : Nat) : List (List Nat) → Option (List (List Nat))
  | [] => none
  | s :: ss => if s.length ≤ lv then some ss else some (s :: ss)

/-- Character `lv` of the first string. -/
def headChar (lv : Nat) : List (List Nat) → Option Nat
  | [] => none
  | s :: _ => s[lv]?

/-- `next()`, list_trie_iterator.hpp 221-239. -/
def LIt.next (it : LIt) : Option (List (List Nat)) :=
  (skipShort (it.depth - 1) it.seg).bind fun s =>
  (headChar (it.depth - 1) s).bind fun ch => nextLoop (it.depth - 1) ch s

/-- `operator*`, list_trie_iterator.hpp 77-88. -/
def LIt.deref (it : LIt) : Option Nat :=
  match it.seg with
  | [] => none
  | s :: ss =>
    if 1 ≤ it.depth ∧ it.depth - 1 ≤ s.length then
      (skipShort (it.depth - 1) (s :: ss)).bind fun t => headChar (it.depth - 1) t
    else none

/-- `begin()`, list_trie_iterator.hpp 138-158. -/
def LIt.begin (it : LIt) : Option LIt :=
  if it.depth = 0 then some ⟨skipEnd it.depth it.seg, 1⟩
  else
    it.next.map fun r => ⟨(skipEnd it.depth it.seg).take ((skipEnd it.depth it.seg).length - r.length), it.depth + 1⟩

/-- `has_child()`, list_trie_iterator.hpp 171-192. -/
def LIt.hasChild (it : LIt) : Option Bool :=
  if it.depth = 0 then some (decide (it.seg ≠ []))
  else
    match it.seg with
    | [] => none
    | s :: ss =>
      match skipEnd it.depth (s :: ss) with
      | [] => some false
      | t :: _ => it.deref.bind fun ch => (t[it.depth - 1]?).map fun c => decide (ch = c)

/-- `has_null()`, list_trie_iterator.hpp 196-206. -/
def LIt.hasNull (it : LIt) : Option Bool :=
  if it.depth = 0 then some false
  else
    match it.seg with
    | [] => none
    | s :: _ => some (decide (s.length = it.depth))

/-- `string()`, list_trie_iterator.hpp 129-134. -/
def LIt.string (it : LIt) : Option (List Nat) :=
  match it.seg with
  | [] => none
  | s :: _ => if it.depth ≤ s.length then some (s.take it.depth) else none

/-- Loop of `assign_children()`, trie_construct_iterator.hpp 82-87; `fuel` bounds the number of children.  Returns the
labels and the iterators pushed to the queue. -/
def childrenLoop : Nat → LIt → Option (List Nat × List LIt)
  | fuel, it =>
    if it.seg = [] then some ([], [])
    else
      match fuel with
      | 0 => none
      | fuel + 1 =>
        it.deref.bind fun l =>
        it.hasChild.bind fun c =>
        it.next.bind fun s =>
        (childrenLoop fuel ⟨s, it.depth⟩).map fun r => (l :: r.1, if c then it :: r.2 else r.2)

/-- `assign_children()`, trie_construct_iterator.hpp 73-89; the label vector holds 257 labels. -/
def assignChildren (it : LIt) : Option (List Nat × List LIt) :=
  it.begin.bind fun b =>
  (childrenLoop b.seg.length b).bind fun r =>
  it.hasNull.bind fun n =>
    let ls := if n then r.1 ++ [nullValue] else r.1
    if ls.length ≤ 257 then some (ls, r.2) else none

/-- Loop of `assign(first, last)`, trie_base.hpp 230-237, with the queue of `trie_construct_iterator`; `fuel` bounds the
number of nodes. -/
def buildLoop : Nat → List LIt → Heap → Option Heap
  | _, [], h => some h
  | 0, _ :: _, _ => none
  | fuel + 1, it :: q, h =>
    (assignChildren it).bind fun r =>
    if r.1 = [] then some h
    else
      it.string.bind fun p =>
      (Base.lookup h p).bind fun i =>
      (add h (if i.1 = 0 then 1 else i.1) r.1).bind fun a => buildLoop fuel (q ++ r.2) a.1

/-- `operator<` of byte strings (`std::lexicographical_compare` of unsigned characters). -/
def strLt : List Nat → List Nat → Bool
  | _, [] => false
  | [], _ :: _ => true
  | a :: s, b :: t => if a < b then true else if b < a then false else strLt s t

/-- `std::is_sorted(first, last) && std::adjacent_find(first, last) == last`, trie_base.hpp 214: no string is followed by
a smaller or an equal one. -/
def sortedUnique : List (List Nat) → Bool
  | [] => true
  | [_] => true
  | a :: b :: r => !strLt b a && decide (a ≠ b) && sortedUnique (b :: r)

/-- The loop that inserts one by one, trie_base.hpp 216-220. -/
def insertAll : List (List Nat) → Heap → Option Heap
  | [], h => some h
  | k :: ks, h => (Base.insertKey h k 0).bind fun r => insertAll ks r.1

/-- `assign(first, last)`, trie_base.hpp 202-240. -/
def Base.assign (keys : List (List Nat)) : Option Heap :=
  if sortedUnique keys = false then insertAll keys Heap.empty
  else
    (buildLoop ((keys.map fun k => k.length + 1).sum + 1) [⟨keys, 0⟩] Heap.empty).bind fun h =>
    wrB h 0 (keys.length : Int)

end Verif.Model.Trie
