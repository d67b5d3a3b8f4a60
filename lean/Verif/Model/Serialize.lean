/-
Model of include/wordring/serialize/serialize.hpp and serialize_iterator.hpp.
Integers of `w` bytes are `Nat`s; casts to an unsigned type are `% 2^(8*w)`; bytes are `Nat`s below 256.
-/
namespace Verif.Model.Serialize

/-- `std::make_unsigned_t<T> n = number;` for a signed argument (serialize.hpp:13, 23): reduction modulo 2^(8w). -/
def toUnsigned (w : Nat) (x : Int) : Nat := (x % (2 ^ (8 * w) : Nat)).toNat

/-- `result = buf` for a signed `T` (serialize.hpp:34): two's complement reading of the unsigned buffer. -/
def fromUnsigned (w : Nat) (n : Nat) : Int :=
  if n < 2 ^ (8 * w - 1) then (n : Int) else (n : Int) - (2 ^ (8 * w) : Nat)

/-- `serialize(T number, uint32_t position)` (serialize.hpp:20-24). -/
def serializeAt (w n position : Nat) : Nat := (n >>> ((w - position - 1) * 8)) &&& 0xFF

/-- `serialize(T number)` (serialize.hpp:9-18): the loop over `i < length`, collecting `result[i]`. -/
def serialize (w n : Nat) : List Nat :=
  (List.range w).map fun i => (n >>> ((w - i - 1) * 8)) &&& 0xFF

/-- Loop of `deserialize` (serialize.hpp:31-36): at most `k` more bytes, buffer truncated to `w` bytes. -/
def deserializeLoop (w : Nat) : Nat → Nat → List Nat → Nat × List Nat
  | 0, buf, s => (buf, s)
  | _ + 1, buf, [] => (buf, [])
  | k + 1, buf, b :: s => deserializeLoop w k (((buf <<< 8) + b) % 2 ^ (8 * w)) s

/-- `deserialize(first, last, result)` (serialize.hpp:26-37): value and the rest of the range. -/
def deserialize (w : Nat) (s : List Nat) : Nat × List Nat := deserializeLoop w w 0 s

/-- State of `serialize_iterator` (serialize_iterator.hpp:118-120): rest of the base range and `m_index` (a uint32). -/
structure SerIt where
  it : List Nat
  index : Nat

/-- `serialize_iterator::operator*` (serialize_iterator.hpp:97-102); `none` = dereferencing the end of the base. -/
def SerIt.deref (w : Nat) (s : SerIt) : Option Nat :=
  match s.it with
  | [] => none
  | x :: _ => some ((x >>> (((w - 1) - (s.index % w)) * 8)) &&& 0xFF)

/-- `serialize_iterator::operator++` (serialize_iterator.hpp:104-109), `m_index` wraps modulo 2^32. -/
def SerIt.next (w : Nat) (s : SerIt) : SerIt :=
  let i := (s.index + 1) % 2 ^ 32
  if i % w = 0 then { it := s.it.tail, index := i } else { it := s.it, index := i }

/-- `operator!=` against `serialize_iterator(base_end)` (serialize_iterator.hpp:129-134, 84-88); the base
iterators of one range are equal exactly when the rests are. -/
def SerIt.neEnd (w : Nat) (s : SerIt) : Bool := !s.it.isEmpty || s.index % w != 0 % w

/-- `while (it1 != it2) out(*it1++)` over a serialize_iterator range (usage in serialize_iterator.hpp:29-33);
`fuel` bounds the number of steps, `none` = out of fuel or invalid dereference. -/
def SerIt.run (w : Nat) : Nat → SerIt → Option (List Nat)
  | 0, s => if s.neEnd w then none else some []
  | fuel + 1, s =>
    if s.neEnd w then
      match s.deref w with
      | none => none
      | some b => (SerIt.run w fuel (s.next w)).map (b :: ·)
    else some []

/-- `deserialize_iterator::operator*` (serialize_iterator.hpp:205-213); `none` = reading past the end. -/
def deserDeref (w : Nat) : Nat → Nat → List Nat → Option Nat
  | 0, v, _ => some v
  | _ + 1, _, [] => none
  | k + 1, v, b :: s => deserDeref w k (((v <<< 8) + b) % 2 ^ (8 * w)) s

/-- `while (it1 != it2) out(*it1++)` over a deserialize_iterator range (serialize_iterator.hpp:153-157, 215-219);
`none` = out of fuel or reading/advancing past the end. -/
def deserRun (w : Nat) : Nat → List Nat → Option (List Nat)
  | _, [] => some []
  | 0, _ :: _ => none
  | fuel + 1, s =>
    match deserDeref w w 0 s with
    | none => none
    | some v => (deserRun w fuel (s.drop w)).map (v :: ·)

end Verif.Model.Serialize
