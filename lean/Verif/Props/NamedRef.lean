import Verif.Proof.NamedRef3
import Verif.Props.HtmlTok
/- Property C100: the look up of named character references. -/
namespace Verif.Props.NamedRef
open Verif.Model.NamedRef Verif.Spec.NamedRef Verif.Spec.HtmlTok Verif.Spec.HtmlTokBridge Verif.Proof.NamedRef
open Verif.Spec.HtmlAtom (codes)

/-- C100, in full: for every text, the look up is defined and gives the longest name of the standard's list that the text begins
with, and the code points the list has for it. -/
def C100_statement : Prop := Agree (fun c => c < 0x110000) find names

set_option maxRecDepth 100000 in
/-- Behind "zwnj" (and some other names that begin with z) a letter or "<" makes it read behind the end of the table. -/
theorem C100_behind : find (codes "zwnj<") = none ∧ find (codes "zwnjoy") = none ∧ find (codes "zwja") = none ∧ find (codes "Zscrx") = none := by
  decide +kernel

theorem C100_statement_false : ¬ C100_statement := by
  intro h
  obtain ⟨r, h1, _⟩ := h (codes "zwnj<") (by decide +kernel)
  rw [C100_behind.1] at h1
  cases h1

/-- The same for the tokenizer. -/
theorem C100_tokenize : Verif.Model.HtmlTok.tokenize (Verif.Model.HtmlTok.record none) find 400 [] (codes "&zwnj<b>") = none := by
  decide +kernel

/-- C100. Whatever the look up gives is right: the longest name and its code points, for all names and all texts. -/
theorem C100_right_partial (s : List Nat) (hs : ∀ c ∈ s, c < 2 ^ 32) (r : Option (List Nat × Nat × Nat)) (h : find s = some r) :
    (r.map fun (n, a, b) => (n, if b ≠ 0 then [a, b] else [a])) = longest names s := by
  cases hm : Verif.Model.NamedRef.matchLoop heap s 1 1 0 0 with
  | none => rw [find_none s hm] at h; cases h
  | some res =>
    obtain ⟨r', h1, h2⟩ := find_of_loop s hs res hm
    rw [h] at h1
    injection h1 with h1
    subst h1
    exact h2

set_option maxRecDepth 100000 in
example : find (codes "notin;x") = some (some (codes "notin;", 0x2209, 0)) ∧ find (codes "notit;") = some (some (codes "not", 0xAC, 0)) ∧
    find (codes "NotEqualTilde;") = some (some (codes "NotEqualTilde;", 0x2242, 0x338)) ∧ find (codes "xyz") = some none := by
  decide +kernel

/-- C100. It is defined for all texts that do not begin with z or Z. -/
theorem C100_partial (s : List Nat) (hs : ∀ c ∈ s, c < 2 ^ 32) (h1 : s.head? ≠ some 0x7A) (h2 : s.head? ≠ some 0x5A) :
    ∃ r, find s = some r ∧ (r.map fun (n, a, b) => (n, if b ≠ 0 then [a, b] else [a])) = longest names s := by
  cases hm : Verif.Model.NamedRef.matchLoop heap s 1 1 0 0 with
  | none => exact absurd hm (loop_not_z s hs h1 h2)
  | some res => exact find_of_loop s hs res hm

example : (∀ c ∈ codes "amp;", c < 2 ^ 32) ∧ (codes "amp;").head? ≠ some 0x7A ∧ (codes "amp;").head? ≠ some 0x5A := by decide +kernel

/-- C100. It is defined for all texts that begin with a name that ends in a semicolon, and gives this name. -/
theorem C100_semicolon_partial (n cps rest : List Nat) (hn : (n, cps) ∈ names) (hl : n.getLast? = some 0x3B) (hr : ∀ c ∈ rest, c < 2 ^ 32) :
    ∃ a b, find (n ++ rest) = some (some (n, a, b)) ∧ (if b ≠ 0 then [a, b] else [a]) = cps := by
  have hs : ∀ c ∈ n ++ rest, c < 2 ^ 32 := by
    intro c hc
    rcases List.mem_append.mp hc with hc | hc
    · obtain ⟨_, _, row⟩ := row_mem hn
      have := (row.chars c hc).2
      omega
    · exact hr c hc
  cases hm : Verif.Model.NamedRef.matchLoop heap (n ++ rest) 1 1 0 0 with
  | none => exact absurd hm (loop_semi hn hl rest)
  | some res =>
    obtain ⟨r, h1, h2⟩ := find_of_loop _ hs res hm
    rw [find_semi hn hl rest] at h2
    match r, h2 with
    | some (n', a, b), h2 =>
      have h2' : some (n', shown a b) = some (n, cps) := h2
      injection h2' with h2'
      injection h2' with e1 e2
      subst e1
      exact ⟨a, b, h1, e2⟩

set_option maxRecDepth 100000 in
/-- "zwnj;" is such a name. -/
example : (codes "zwnj;", [0x200C]) ∈ names ∧ find (codes "zwnj;<") = some (some (codes "zwnj;", 0x200C, 0)) := by
  constructor
  · unfold names names11
    simp
  · decide +kernel

end Verif.Props.NamedRef
