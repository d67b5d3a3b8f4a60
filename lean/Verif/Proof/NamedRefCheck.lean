import Verif.Model.NamedRef
import Verif.Spec.NamedRef
import Verif.Proof.NamedRefData
/-
Checks of the nodes of the trie of named character references, and of the names of the standard, for the kernel.
-/
namespace Verif.Proof.NamedRef
open Verif.Model.Table Verif.Model.Tables.NamedRef Verif.Spec.HtmlTok

/-- `Table.get`, in a form that is quick for the kernel. -/
def raw (d b w i : Nat) : Nat := Nat.mod (Nat.shiftRight d (Nat.mul b i)) w

def nb (j : Nat) : Nat := raw baseData 20 1048576 j
def nc (j : Nat) : Nat := raw checkData 16 65536 j
def nv (j : Nat) : Nat := raw mapData 40 1099511627776 j
def ends (r : Nat) : Nat := raw endData 16 65536 r
def cert (j : Nat) : Nat := raw certData 20 1048576 j
/-- The row of a node, and its depth. -/
def cr (j : Nat) : Nat := Nat.mod (cert j) 4096
def cd (j : Nat) : Nat := Nat.div (cert j) 4096
def nm (r : Nat) : Nat := Nat.mod (Nat.shiftRight nameData (Nat.mul 256 r)) (Nat.pow 2 256)
def chr (r k : Nat) : Nat := Nat.mod (Nat.shiftRight (nm r) (Nat.mul 8 k)) 256
/-- The bytes of a name: four for each character. -/
def byte (r k : Nat) : Nat := bif Nat.beq (Nat.mod k 4) 3 then chr r (Nat.div k 4) else 0

/-- The node is the end of a name. -/
def acc (j : Nat) : Bool :=
  or (Nat.ble (nb j) 4096) (and (Nat.ble (nb j) 36987) (Nat.beq (nc (Nat.sub (nb j) 3840)) j))

/-- A node `j` behind a byte: its parent `p`, its row `r`, the depth `d` of the parent, 8 times the number `e` of whole characters
in front of it. -/
def inner (j p r d e : Nat) : Bool :=
  and (Nat.beq (cd j) (Nat.succ d)) <|
  and (Nat.blt r 2231) <|
  and (Nat.beq (Nat.add j 4096) (Nat.add (nb p) (byte r d))) <|
  and (Nat.blt 0 (Nat.shiftRight (nm r) e)) <|
  and (Nat.beq (Nat.mod (nm r) (Nat.pow 2 e)) (Nat.mod (nm (cr p)) (Nat.pow 2 e))) <|
  and (or (Nat.blt (Nat.mod d 4) 3) (or (not (acc j)) (Nat.beq (Nat.shiftRight (nm r) (Nat.add e 8)) 0)))
    (or (Nat.ble (nb j) 36988) (and (Nat.ble 3 d) (or (Nat.beq (Nat.mod (nm r) 256) 0x7A) (Nat.beq (Nat.mod (nm r) 256) 0x5A))))

/-- A node other than the root; those behind the label 256 hold values. -/
def nodeOk (j : Nat) : Bool :=
  and (Nat.ble 1 (nc j)) <|
  and (Nat.blt (nc j) 33148) <|
  and (Nat.blt 4096 (nb (nc j))) <|
  and (Nat.ble (nb (nc j)) (Nat.add j 4096)) <|
  and (Nat.blt (nb (nc j)) 37244) <|
  or (and (Nat.beq (Nat.add j 3840) (nb (nc j))) (Nat.ble (nb j) 4096))
    (inner j (nc j) (cr j) (cd (nc j)) (Nat.mul 8 (Nat.div (cd (nc j)) 4)))

def nodesOk : Nat → Nat → Bool
  | 0, _ => true
  | n + 1, j => and (nodeOk j) (nodesOk n (Nat.succ j))

theorem nodesOk_spec (n j : Nat) (h : nodesOk n j = true) (i : Nat) (h1 : j ≤ i) (h2 : i < j + n) : nodeOk i = true := by
  induction n generalizing j with
  | zero => omega
  | succ n ih =>
    rw [nodesOk, Bool.and_eq_true] at h
    by_cases hi : i = j
    · rw [hi]; exact h.1
    · exact ih (j + 1) h.2 (by omega) (by omega)

def enc : List Nat → Nat
  | [] => 0
  | c :: l => c + 256 * enc l

/-- The value of a node. -/
def valOf (e : Nat) : Nat := bif Nat.ble (nb e) 4096 then e else Nat.sub (nb e) 3840

def pointsOk (v : Nat) : List Nat → Bool
  | [a] => and (Nat.beq v a) (Nat.blt a 1048576)
  | [a, b] => and (Nat.beq v (a + 1048576 * b)) (and (Nat.blt a 1048576) (Nat.blt 0 b))
  | _ => false

/-- Row `r` of the names. -/
def rowOk (r e : Nat) (x : List Nat × List Nat) : Bool :=
  and (Nat.beq (nm r) (enc x.1)) <|
  and (x.1.all fun c => and (Nat.blt 47 c) (Nat.blt c 256)) <|
  and (Nat.blt 1 e) <|
  and (Nat.blt e 33148) <|
  and (not (Nat.beq (Nat.add e 3840) (nb (nc e)))) <|
  and (Nat.beq (cr e) r) <|
  and (Nat.beq (cd e) (4 * x.1.length)) <|
  and (acc e) <|
  and (Nat.ble (nb (valOf e)) 4096) <|
  and (Nat.blt 1865 (nb (valOf e))) <|
  and (pointsOk (nv (Nat.sub 4096 (nb (valOf e)))) x.2) <|
  and (or (not (Nat.beq (x.1.getLastD 0) 0x3B)) (Nat.ble (nb e) 4096)) <|
  and (Nat.ble x.1.length 32) (Nat.blt 0 x.1.length)

/-- The rows from `r` up to `e`. -/
def rowsOk : Refs → Nat → Nat → Bool
  | [], r, e => Nat.beq r e
  | x :: l, r, e => and (rowOk r (ends r) x) (rowsOk l (Nat.succ r) e)

theorem rowsOk_append {l m : Refs} {r d e : Nat} (h : rowsOk l r d = true) (h' : rowsOk m d e = true) : rowsOk (l ++ m) r e = true := by
  induction l generalizing r with
  | nil =>
    rw [rowsOk, Nat.beq_eq] at h
    subst h
    exact h'
  | cons x l ih =>
    rw [rowsOk, Bool.and_eq_true] at h
    rw [List.cons_append, rowsOk, Bool.and_eq_true]
    exact ⟨h.1, ih h.2⟩

end Verif.Proof.NamedRef
