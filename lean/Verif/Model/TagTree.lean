/-!
# Model of the tag tree

Source: `/repo/include/wordring/tag_tree/tag_tree.hpp`, `tag_tree_iterator.hpp`, `serial_iterator.hpp`,
`character_iterator.hpp`.  The node vector `*m_c` is a length and one function per member; indexes are unbounded.
An iterator is its index `m_i`.  Reading or writing behind the vector and a failed assertion are undefined (`none`).
`node_traits::is_single` (html/simple_traits.hpp 307-320), `is_text` and `data` are parameters.
-/
namespace Verif.Model.TagTree

/-- `std::vector<tag_node>`, tag_node.hpp 7-19 and tag_tree.hpp 34-35, 316. -/
structure T (α : Type) where
  len : Nat
  prev : Nat → Nat
  next : Nat → Nat
  head : Nat → Nat
  tail : Nat → Nat
  val : Nat → α

variable {α : Type}

def upd {β : Type} (f : Nat → β) (i : Nat) (x : β) : Nat → β := fun j => if j = i then x else f j

def T.rd {β : Type} (t : T α) (f : Nat → β) (i : Nat) : Option β := if i < t.len then some (f i) else none

def T.setPrev (t : T α) (i x : Nat) : Option (T α) := if i < t.len then some { t with prev := upd t.prev i x } else none
def T.setNext (t : T α) (i x : Nat) : Option (T α) := if i < t.len then some { t with next := upd t.next i x } else none
def T.setHead (t : T α) (i x : Nat) : Option (T α) := if i < t.len then some { t with head := upd t.head i x } else none
def T.setTail (t : T α) (i x : Nat) : Option (T α) := if i < t.len then some { t with tail := upd t.tail i x } else none
def T.setVal (t : T α) (i : Nat) (x : α) : Option (T α) := if i < t.len then some { t with val := upd t.val i x } else none

/-- `tag_tree()`, tag_tree.hpp 83-85, and `clear()`, 145-149. -/
def T.empty [Inhabited α] : T α := ⟨1, fun _ => 0, fun _ => 0, fun _ => 0, fun _ => 0, fun _ => default⟩

/-- `m_c->emplace_back(wrapper{0, 0, 0, 0, val})`, tag_tree.hpp 228. -/
def T.push (t : T α) (v : α) : T α :=
  ⟨t.len + 1, upd t.prev t.len 0, upd t.next t.len 0, upd t.head t.len 0, upd t.tail t.len 0, upd t.val t.len v⟩

/-- `allocate`, tag_tree.hpp 220-244. -/
def allocate (t : T α) (v : α) : Option (T α × Nat) :=
  (t.rd t.tail 0).bind fun idx =>
  if idx = 0 then some (t.push v, t.len)
  else
    (t.rd t.head idx).bind fun before =>
    (t.rd t.tail idx).bind fun after =>
    (t.setVal idx v).bind fun t =>
    (t.setPrev idx 0).bind fun t =>
    (t.setNext idx 0).bind fun t =>
    (t.setTail before after).bind fun t =>
    (t.setHead after before).bind fun t => some (t, idx)

/-- Loop of `free`, tag_tree.hpp 253-254; `fuel` bounds the number of free nodes. -/
def freeWalk (t : T α) (idx : Nat) : Nat → Nat → Nat → Option Nat
  | fuel, before, i =>
    if i ≠ 0 ∧ i < idx then
      match fuel with
      | 0 => none
      | fuel + 1 => (t.rd t.tail i).bind fun j => freeWalk t idx fuel i j
    else some before

/-- `free`, tag_tree.hpp 246-270. -/
def free (t : T α) (idx : Nat) : Option (T α) :=
  if idx < t.len then
    (t.rd t.tail 0).bind fun i =>
    (freeWalk t idx t.len 0 i).bind fun before =>
    (t.rd t.tail before).bind fun after =>
    (t.setTail before idx).bind fun t =>
    (t.setHead idx before).bind fun t =>
    (t.setTail idx after).bind fun t =>
    (t.setHead after idx).bind fun t =>
    (t.setPrev idx 0).bind fun t => t.setNext idx 0
  else none

/-- `link`, tag_tree.hpp 272-293. -/
def link (t : T α) (pos idx : Nat) : Option (T α) :=
  (t.rd t.prev pos).bind fun before =>
  (t.setNext before idx).bind fun t =>
  (t.setPrev idx before).bind fun t =>
  (t.setNext idx pos).bind fun t =>
  (t.setPrev pos idx).bind fun t =>
  (t.setHead idx 0).bind fun t => t.setTail idx 0

/-- `unlink`, tag_tree.hpp 295-313. -/
def unlink (t : T α) (idx : Nat) : Option (T α) :=
  (t.rd t.prev idx).bind fun before =>
  (t.rd t.next idx).bind fun after =>
  (t.setNext before after).bind fun t =>
  (t.setPrev after before).bind fun t =>
  (t.setPrev idx 0).bind fun t =>
  (t.setNext idx 0).bind fun t =>
  (t.setHead idx 0).bind fun t => t.setTail idx 0

/-- `insert`, tag_tree.hpp 153-174; `single` is `node_traits::is_single`. -/
def insert [Inhabited α] (single : α → Bool) (t : T α) (pos : Nat) (v : α) : Option (T α × Nat) :=
  (allocate t v).bind fun r =>
  (link r.1 pos r.2).bind fun t =>
  if single v then some (t, r.2)
  else
    (allocate t default).bind fun q =>
    (link q.1 pos q.2).bind fun t =>
    (t.setTail r.2 q.2).bind fun t =>
    (t.setHead q.2 r.2).bind fun t => some (t, r.2)

/-- `(d + i)->m_tail == 0 ? i : (d + i)->m_tail`, tag_tree.hpp 185 and 205. -/
def lastTag (t : T α) (i : Nat) : Option Nat := (t.rd t.tail i).map fun e => if e = 0 then i else e

/-- `move`, tag_tree.hpp 176-198. -/
def move (t : T α) (pos sub : Nat) : Option (T α × Nat) :=
  (t.rd t.prev pos).bind fun posBefore =>
  (t.rd t.prev sub).bind fun subBefore =>
  (lastTag t sub).bind fun subTail =>
  (t.rd t.next subTail).bind fun subAfter =>
  (t.setNext posBefore sub).bind fun t =>
  (t.setPrev sub posBefore).bind fun t =>
  (t.setPrev pos subTail).bind fun t =>
  (t.setNext subTail pos).bind fun t =>
  (t.setNext subBefore subAfter).bind fun t =>
  (t.setPrev subAfter subBefore).bind fun t => some (t, sub)

/-- Loop of `erase`, tag_tree.hpp 208-214; `fuel` bounds the number of erased tags. -/
def eraseLoop (before : Nat) : Nat → T α → Nat → Option (T α)
  | fuel, t, tail =>
    if tail = before then some t
    else
      match fuel with
      | 0 => none
      | fuel + 1 =>
        (t.rd t.prev tail).bind fun prev =>
        (unlink t tail).bind fun t => (free t tail).bind fun t => eraseLoop before fuel t prev

/-- `erase`, tag_tree.hpp 200-217. -/
def erase (t : T α) (pos : Nat) : Option (T α × Nat) :=
  (t.rd t.prev pos).bind fun before =>
  (lastTag t pos).bind fun tail =>
  (t.rd t.next tail).bind fun after =>
  (eraseLoop before t.len t tail).map fun t => (t, after)

/-- `begin()` and `sbegin()`, tag_tree.hpp 107-121; `end()` and `send()` are the index 0. -/
def begin0 (t : T α) : Option Nat := t.rd t.next 0

/-- `empty()`, tag_tree.hpp 127. -/
def isEmpty (t : T α) : Option Bool := (t.rd t.next 0).map fun n => decide (n = 0)

/-- Loop of `size()`, tag_tree.hpp 134-140; `fuel` bounds the number of tags. -/
def sizeLoop (t : T α) : Nat → Nat → Option Nat
  | fuel, idx =>
    if idx = 0 then some 0
    else
      match fuel with
      | 0 => none
      | fuel + 1 =>
        (t.rd t.tail idx).bind fun tail => (t.rd t.head idx).bind fun head => (t.rd t.next idx).bind fun next =>
        (sizeLoop t fuel next).map fun n => if tail = 0 ∧ head ≠ 0 then n else n + 1

/-- `size()`, tag_tree.hpp 129-143. -/
def size (t : T α) : Option Nat := (t.rd t.next 0).bind fun i => sizeLoop t t.len i

/-- `operator*`, tag_tree_iterator.hpp 59; the container has a value at every index, also at `end()` and at end tags. -/
def deref (t : T α) (i : Nat) : Option α := t.rd t.val i

/-- `operator++`, tag_tree_iterator.hpp 71-80. -/
def incr (t : T α) (i : Nat) : Option Nat :=
  if i = 0 then none
  else (t.rd t.tail i).bind fun tail => if tail = 0 then t.rd t.next i else t.rd t.next tail

/-- `operator--`, tag_tree_iterator.hpp 89-99. -/
def decr (t : T α) (i : Nat) : Option Nat :=
  (t.rd t.prev i).bind fun prev =>
  if prev = 0 then none else (t.rd t.head prev).map fun head => if head = 0 then prev else head

/-- Loop of `parent()`, tag_tree_iterator.hpp 121-128; `fuel` bounds the number of tags. -/
def parentLoop (t : T α) : Nat → Nat → Option Nat
  | fuel, idx =>
    if idx = 0 then some 0
    else
      match fuel with
      | 0 => none
      | fuel + 1 =>
        (t.rd t.tail idx).bind fun tail =>
        if tail ≠ 0 then some idx
        else
          (t.rd t.head idx).bind fun head =>
          (t.rd t.prev (if head ≠ 0 then head else idx)).bind fun idx => parentLoop t fuel idx

/-- `parent()`, tag_tree_iterator.hpp 116-131.  The iterator for 0 (line 130) has no container; it compares equal to `end()`. -/
def parent (t : T α) (i : Nat) : Option Nat := (t.rd t.prev i).bind fun idx => parentLoop t t.len idx

/-- `begin()` and `end()` of an iterator, tag_tree_iterator.hpp 133-143. -/
def beginOf (t : T α) (i : Nat) : Option Nat := (t.rd t.tail i).bind fun tail => if tail = 0 then some 0 else t.rd t.next i
def endOf (t : T α) (i : Nat) : Option Nat := t.rd t.tail i

/-- `operator++` and `operator--` of the serial iterator, serial_iterator.hpp 74-94. -/
def sincr (t : T α) (i : Nat) : Option Nat := if i = 0 then none else t.rd t.next i
def sdecr (t : T α) (i : Nat) : Option Nat := t.rd t.prev i

/-- `is_start_tag()` and `is_end_tag()`, serial_iterator.hpp 118-124. -/
def isStart (t : T α) (i : Nat) : Option Bool := (t.rd t.tail i).map fun x => decide (x ≠ 0)
def isEnd (t : T α) (i : Nat) : Option Bool := (t.rd t.head i).map fun x => decide (x ≠ 0)

/-- `start_tag()` and `end_tag()`, serial_iterator.hpp 132-148. -/
def startTag (t : T α) (i : Nat) : Option Nat := (isStart t i).bind fun b => if b then some i else t.rd t.head i
def endTag (t : T α) (i : Nat) : Option Nat := (isEnd t i).bind fun b => if b then some i else t.rd t.tail i

section character
/-! The character iterator; `text v` is the text of a text node, `none` for other nodes. -/
variable {β : Type} (text : α → Option (List β))

/-- `next()`, character_iterator.hpp 194-201; `fuel` bounds the number of tags. -/
def nextText (t : T α) : Nat → Nat → Option Nat
  | fuel, i =>
    if i = 0 then some 0
    else
      match fuel with
      | 0 => none
      | fuel + 1 =>
        (t.rd t.val i).bind fun v => if (text v).isSome then some i else (t.rd t.next i).bind fun j => nextText t fuel j

/-- `prev()`, character_iterator.hpp 181-188. -/
def prevText (t : T α) : Nat → Nat → Option Nat
  | fuel, i =>
    if i = 0 then some 0
    else
      match fuel with
      | 0 => none
      | fuel + 1 =>
        (t.rd t.val i).bind fun v => if (text v).isSome then some i else (t.rd t.prev i).bind fun j => prevText t fuel j

/-- `const_tag_tree_character_iterator`: `m_it` and `m_i`, character_iterator.hpp 203-205. -/
abbrev CIt := Nat × Nat

/-- Constructor, character_iterator.hpp 58-63. -/
def cmake (t : T α) (i : Nat) : Option CIt := (nextText text t t.len i).map fun j => (j, 0)

/-- `operator*`, character_iterator.hpp 81-87.  `data[size()]` is the terminating zero of the string, `zero`; behind it
the behaviour is undefined. -/
def cderef (zero : β) (t : T α) (c : CIt) : Option β :=
  if c.1 = 0 then none
  else (t.rd t.val c.1).bind fun v => (text v).bind fun s => if c.2 = s.length then some zero else s[c.2]?

/-- `operator++`, character_iterator.hpp 101-117. -/
def cincr (t : T α) (c : CIt) : Option CIt :=
  if c.1 = 0 then none
  else (t.rd t.val c.1).bind fun v =>
    match text v with
    | some s =>
      if c.2 + 1 < s.length then some (c.1, c.2 + 1)
      else (t.rd t.next c.1).bind fun i => (nextText text t t.len i).map fun j => (j, 0)
    | none => (nextText text t t.len c.1).map fun j => (j, c.2)

/-- `static_cast<std::uint32_t>(n - 1)`. -/
def pred32 (n : Nat) : Nat := (n + 2 ^ 32 - 1) % 2 ^ 32

/-- `m_i = static_cast<std::uint32_t>(data(m_it).size() - 1)` unless at the end, character_iterator.hpp 146-148. -/
def cback (t : T α) (i k : Nat) : Option CIt :=
  (prevText text t t.len i).bind fun j =>
  if j = 0 then some (0, k)
  else (t.rd t.val j).bind fun v => (text v).map fun s => (j, pred32 s.length)

/-- `operator--`, character_iterator.hpp 130-151. -/
def cdecr (t : T α) (c : CIt) : Option CIt :=
  if c.1 ≠ 0 then
    (t.rd t.val c.1).bind fun v =>
    match text v with
    | some _ => if c.2 ≠ 0 then some (c.1, c.2 - 1) else (t.rd t.prev c.1).bind fun i => cback text t i c.2
    | none => cback text t c.1 c.2
  else (t.rd t.prev c.1).bind fun i => cback text t i c.2

end character
end Verif.Model.TagTree
