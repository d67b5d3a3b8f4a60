import Verif.Spec.HtmlTree
import Verif.Proof.HtmlTreeText
import Verif.Proof.HtmlTreeEval
import Verif.Props.HtmlTok
/- Properties C105 to C109: the parser of HTML documents. -/
namespace Verif.Props.HtmlTree
open Verif.Model.HtmlTree Verif.Proof.HtmlTree Verif.Spec.HtmlTree Verif.Spec.HtmlTokBridge
open Verif.Model.HtmlTok (Find)
open Verif.Spec.HtmlAtom (codes)
open Verif.Spec.HtmlSerial (serialize)
open Verif.Props.HtmlTok (noNames agree_none)
open Verif.Proof.HtmlTok (agree_find)

/-! C106. -/

/-- C106. Whatever the tokens are, processing them ends: a token is reprocessed a number of times that the depth of the stack and
the number of formatting elements bound. -/
theorem C106_tokens (tbl : List Nat → Bool) (l : List Tok) : emits tbl l init ≠ .error .fuel := nf_emits k_init

/-- C106. Whatever the text is, parsing it ends, and so does announcing its end. -/
theorem C106_text (tbl : List Nat → Bool) (P : Nat → Prop) (find : Find) (hF : FindOk P find) (h10 : P 10) (l : List Nat)
    (hl : ∀ c ∈ l, P c) :
    (∃ r, (∀ f, 24 * l.length + 39 ≤ f → parse tbl find f l = some r) ∧ r ≠ .error .fuel) ∧
      ∃ r, (∀ f, 24 * l.length + 39 ≤ f → parseEof tbl find f l = some r) ∧ r ≠ .error .fuel := by
  have key : ∀ r, Inv K1 (· ≠ .fuel) r → r ≠ .error .fuel := fun r h e => by rw [e] at h; exact h rfl
  obtain ⟨r, h1, h2⟩ := parse_inv k_inv k_init P find hF h10 l hl
  obtain ⟨r', h3, h4⟩ := parseEof_inv k_inv k_init P find hF h10 l hl
  exact ⟨⟨r, h1, key r h2⟩, r', h3, key r' h4⟩

/-- What a text gives: the serialized document, or a failure. -/
def gives : Option (R S) → Option (Fail ⊕ List Nat)
  | some (.ok s) => some (.inr (serialize (document s.dom)))
  | some (.error e) => some (.inl e)
  | none => none

/-- A result satisfies a test. -/
def test (q : Spec.HtmlSerial.Dom → Bool) : Option (R S) → Bool
  | some (.ok s) => q (document s.dom)
  | _ => false

theorem test_of {q : Spec.HtmlSerial.Dom → Bool} {r : Option (R S)} (h : test q r = true) :
    ∃ s, r = some (.ok s) ∧ q (document s.dom) = true := by
  match r, h with
  | some (.ok s), h => exact ⟨s, rfl, h⟩

/-- Unclosed and misnested elements, for which tokens are reprocessed. -/
example : FindOk (fun _ => True) noNames ∧
    gives (parseEof (fun _ => false) noNames 1000 (codes "<p>a<b>b<p>c</b>d<table><td>e")) =
      some (.inr (codes ("<html><head></head><body><p>a<b>b</b></p><p><b>c</b>d" ++
        "<table><tbody><tr><td>e</td></tr></tbody></table></p></body></html>"))) :=
  ⟨agree_find agree_none, by unfold parseEof; rw [sink_strict]; decide +kernel⟩

/-! C105. -/

/-- C105, in full: parsing a text is defined behaviour and ends with a document, whatever the text is. -/
def C105_statement : Prop :=
  ∀ (tbl : List Nat → Bool) (P : Nat → Prop) (find : Find), FindOk P find → P 10 → ∀ l : List Nat, (∀ c ∈ l, P c) →
    ∀ f, 24 * l.length + 39 ≤ f → (∃ s, parse tbl find f l = some (.ok s)) ∧ ∃ s, parseEof tbl find f l = some (.ok s)

/-- What a short text gives. -/
def short (w : String) : Option (Fail ⊕ List Nat) := gives (parse (fun _ => false) noNames 1000 (codes w))

/-- The same, and then the end is announced. -/
def shortEof (w : String) : Option (Fail ⊕ List Nat) := gives (parseEof (fun _ => false) noNames 1000 (codes w))

/-- A `button` in a `p`: everything up to a `button` is popped, but there is none. -/
theorem C105_button : short "<p><button>" = some (.inl .empty) := by unfold short parse; rw [sink_strict]; decide +kernel

/-- Foreign content is left: one more element than those of it is popped each time. -/
theorem C105_breakout : short "<svg><p></p><svg><p>" = some (.inl .empty) := by
  unfold short parse; rw [sink_strict]; decide +kernel

/-- The same below a table: the row is not where the insertion mode expects it. -/
theorem C105_table : short "<table><tr><svg><p></tbody>" = some (.inl .assertion) := by
  unfold short parse; rw [sink_strict]; decide +kernel

/-- The adoption agency algorithm inserts before an entry that it has erased. -/
theorem C105_adoption : short "<a><b><span><span><span><div></a>" = some (.inl .stale) := by
  unfold short parse; rw [sink_strict]; decide +kernel

theorem C105_statement_false : ¬ C105_statement := by
  intro h
  obtain ⟨⟨s, hs⟩, -⟩ := h (fun _ => false) (fun _ => True) noNames (agree_find agree_none) trivial (codes "<p><button>")
    (fun _ _ => trivial) 1000 (by decide +kernel)
  have h2 := C105_button
  unfold short at h2
  rw [hs] at h2
  simp [gives] at h2

/-! C107. -/

/-- C107, in full: a parsed document has the shape the standard gives to it - also without the end being announced, which `parse`
does not do. -/
def C107_statement : Prop :=
  ∀ (tbl : List Nat → Bool) (P : Nat → Prop) (find : Find), FindOk P find → P 10 → ∀ l : List Nat, (∀ c ∈ l, P c) →
    ∀ f, 24 * l.length + 39 ≤ f → (∀ s, parse tbl find f l = some (.ok s) → Shaped (document s.dom)) ∧
      ∀ s, parseEof tbl find f l = some (.ok s) → Shaped (document s.dom)

/-- The empty text gives an empty document, instead of one with `html`, `head` and `body`: the end is not announced. -/
theorem C107_empty : short "" = some (.inr []) ∧ shortEof "" = some (.inr (codes "<html><head></head><body></body></html>")) := by
  unfold short shortEof parse parseEof; rw [sink_strict]; decide +kernel

/-- Characters in a table get lost without the end. -/
theorem C107_lost : short "<table>x" = some (.inr (codes "<html><head></head><body><table></table></body></html>")) ∧
    shortEof "<table>x" = some (.inr (codes "<html><head></head><body>x<table></table></body></html>")) := by
  unfold short shortEof parse parseEof; rw [sink_strict]; decide +kernel

/-- A character reference waits for 33 characters, and is lost with all that follows if the text ends before. -/
theorem C107_reference : short "<p>a&lt;b</p>" = some (.inr (codes "<html><head></head><body><p>a</p></body></html>")) := by
  unfold short parse; rw [sink_strict]; decide +kernel

/-- A paragraph behind the body, after foreign content. -/
theorem C107_breakout : shortEof "<svg><p>" = some (.inr (codes "<html><head></head><body><svg></svg></body><p></p></html>")) := by
  unfold shortEof parseEof; rw [sink_strict]; decide +kernel

/-- A cell from a template, instead of the body. -/
theorem C107_template : shortEof "<template><td>x</template>" =
    some (.inr (codes "<html><head><template></template></head><td>x</td></html>")) := by
  unfold shortEof parseEof; rw [sink_strict]; decide +kernel

/-- The shape is wrong with and without the end. -/
theorem C107_statement_false : ¬ C107_statement := by
  intro h
  have h1 : test (fun D => !shaped D) (parse (fun _ => false) noNames 100 (codes "")) = true := by decide +kernel
  obtain ⟨s, h2, h3⟩ := test_of h1
  have h4 := (h (fun _ => false) (fun _ => True) noNames (agree_find agree_none) trivial (codes "") (fun _ _ => trivial) 100
    (by decide +kernel)).1 s h2
  rw [shaped_of _ h4] at h3
  cases h3

theorem C107_statement_false_eof : ∃ s, parseEof (fun _ => false) noNames 300 (codes "<svg><p>") = some (.ok s) ∧
    ¬ Shaped (document s.dom) := by
  have h1 : test (fun D => !shaped D) (parseEof (fun _ => false) noNames 300 (codes "<svg><p>")) = true := by
    unfold parseEof; rw [sink_strict]; decide +kernel
  obtain ⟨s, h2, h3⟩ := test_of h1
  refine ⟨s, h2, fun h4 => ?_⟩
  rw [shaped_of _ h4] at h3
  cases h3

/-! C109. -/

/-- C109, in full: the attributes of HTML elements have no prefix, and SVG elements and their attributes have their proper
names. -/
def C109_statement : Prop :=
  ∀ (tbl : List Nat → Bool) (P : Nat → Prop) (find : Find), FindOk P find → P 10 → ∀ l : List Nat, (∀ c ∈ l, P c) →
    ∀ f, 24 * l.length + 39 ≤ f → ∀ s, parseEof tbl find f l = some (.ok s) →
      ∀ x ∈ nodes (document s.dom), HtmlAttrs x ∧ SvgName x ∧ SvgAttr x

/-- A node of the result of a text fails a test. -/
def fails (q : Spec.HtmlSerial.Data → Bool) (w : String) : Bool :=
  test (fun D => (nodes D).any fun x => !q x) (parseEof (fun _ => false) noNames 1000 (codes w))

/-- The prefix of `xlink:href` turns up at the next element's attribute. -/
theorem C109_prefix : fails (fun x => decide (HtmlAttrs x)) "<svg xlink:href=a></svg><p class=b>" = true := by
  unfold fails parseEof; rw [sink_strict]; decide +kernel

/-- `foreignObject` does not get its capital letter. -/
theorem C109_name : fails (fun x => decide (SvgName x)) "<svg><foreignObject>" = true := by
  unfold fails parseEof; rw [sink_strict]; decide +kernel

/-- Nor does `viewBox` of the `svg` element itself. -/
theorem C109_viewBox : fails (fun x => decide (SvgAttr x)) "<svg viewBox=1>" = true := by
  unfold fails parseEof; rw [sink_strict]; decide +kernel

theorem C109_statement_false : ¬ C109_statement := by
  intro h
  obtain ⟨s, h2, h3⟩ := test_of C109_name
  obtain ⟨x, h4, h5⟩ := List.any_eq_true.mp h3
  have := (h (fun _ => false) (fun _ => True) noNames (agree_find agree_none) trivial _ (fun _ _ => trivial) 1000
    (by decide +kernel) s h2 x h4).2.1
  simp [this] at h5

end Verif.Props.HtmlTree
