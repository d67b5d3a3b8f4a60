import Verif.Spec.HtmlRoundTrip
import Verif.Proof.HtmlTokConf
import Verif.Proof.HtmlSerialScalar
/-
Runs of the standard's tokenizer over what the serializer writes.
-/
namespace Verif.Proof.HtmlRoundTrip
open Verif.Model.HtmlTok Verif.Spec.HtmlTokBridge Verif.Proof.HtmlTok Verif.Spec.HtmlRoundTrip
open Verif.Spec.HtmlTok (steps step start Refs C Env)
open Verif.Spec.HtmlAtom (codes)
variable {σ : Type}

/-- The run may be compared with the library: nothing goes another way, and only the names that the serializer writes are looked
up. -/
def Fine (S : Sink σ) (x : C σ) : Prop :=
  (¬ Trouble S x ∧ x.st ≠ .numericEnd) ∧
    (x.st = .namedRef → ∃ n ∈ [codes "amp;", codes "nbsp;", codes "quot;", codes "lt;", codes "gt;"], n <+: x.rest)

def Path (S : Sink σ) (refs : Refs) (x y : C σ) : Prop :=
  ∃ k, steps (envOf S) refs k x = y ∧ ∀ j < k, Fine S (steps (envOf S) refs j x)

theorem Path.refl (S : Sink σ) (refs : Refs) (x : C σ) : Path S refs x x := ⟨0, rfl, fun _ h => absurd h (by omega)⟩

theorem Path.trans {S : Sink σ} {refs : Refs} {x y z : C σ} (h : Path S refs x y) (h' : Path S refs y z) : Path S refs x z := by
  obtain ⟨a, rfl, ha⟩ := h
  obtain ⟨b, rfl, hb⟩ := h'
  refine ⟨a + b, steps_add _ _ _ _ _, fun j hj => ?_⟩
  by_cases h : j < a
  · exact ha j h
  · obtain ⟨d, rfl⟩ : ∃ d, j = a + d := ⟨j - a, by omega⟩
    rw [steps_add]
    exact hb d (by omega)

theorem Path.one {S : Sink σ} {refs : Refs} {x y : C σ} (h : step (envOf S) refs x = y) (hf : Fine S x) : Path S refs x y :=
  ⟨1, h, fun j hj => by obtain rfl : j = 0 := by omega
                        exact hf⟩

/-- A state in which the library does what the standard says. -/
theorem fine_of {S : Sink σ} {x : C σ} (h1 : x.st ≠ .comment) (h2 : x.st ≠ .scriptDblStart) (h3 : x.st ≠ .markupDecl)
    (h4 : x.st ≠ .numericEnd) (h5 : x.st ≠ .namedRef) : Fine S x := by
  refine ⟨⟨?_, h4⟩, fun h => absurd h h5⟩
  rintro (⟨h, _⟩ | ⟨h, _⟩ | ⟨h, _⟩ | ⟨h, _⟩)
  · exact h1 h
  · exact h2 h
  · exact h3 h
  · exact h4 h

theorem fine_named {S : Sink σ} {x : C σ} (h : x.st = .namedRef)
    (h' : ∃ n ∈ [codes "amp;", codes "nbsp;", codes "quot;", codes "lt;", codes "gt;"], n <+: x.rest) : Fine S x := by
  refine ⟨⟨?_, by simp [h]⟩, fun _ => h'⟩
  rintro (⟨q, _⟩ | ⟨q, _⟩ | ⟨q, _⟩ | ⟨q, _⟩) <;> rw [h] at q <;> cases q

set_option hygiene false in
/-- One row of the table. -/
macro "one_row" : tactic => `(tactic|
  (unfold Spec.HtmlTok.step
   simp [hst, he, Spec.HtmlTok.plain, hr, Spec.HtmlTok.pick, Spec.HtmlTok.table, Spec.HtmlTok.row, Spec.HtmlTok.On.ok, Spec.HtmlTok.If.ok, Spec.HtmlTok.Do.run, Spec.HtmlTok.putc, Spec.HtmlTok.emit, Spec.HtmlTok.Src.val, Spec.HtmlTok.eofDoctype, *]))

section rows
variable (E : Env σ) (refs : Refs) (x : C σ) (he : x.ended = false)
include he

theorem row_data (c : Nat) (l : List Nat) (hst : x.st = .data) (hr : x.rest = c :: l) (h1 : c ≠ 0x26) (h2 : c ≠ 0x3C) :
    step E refs x = { x with rest := l, sink := E.emit x.sink (.char c) } := by
  one_row

theorem row_data_eof (hst : x.st = .data) (hr : x.rest = []) :
    step E refs x = { x with rest := [], sink := E.emit x.sink .eof, ended := true } := by
  one_row

theorem row_data_amp (l : List Nat) (hst : x.st = .data) (hr : x.rest = 0x26 :: l) :
    step E refs x = { x with st := .charRef, ret := .data, rest := l } := by
  one_row

theorem row_data_lt (l : List Nat) (hst : x.st = .data) (hr : x.rest = 0x3C :: l) :
    step E refs x = { x with st := .tagOpen, rest := l } := by
  one_row

theorem row_charRef (c : Nat) (l : List Nat) (hst : x.st = .charRef) (hr : x.rest = c :: l) (h : Spec.HtmlTok.isAlnum c = true) :
    step E refs x = { x with st := .namedRef, tmp := [0x26] } := by
  one_row

theorem row_open_name (c : Nat) (l : List Nat) (hst : x.st = .tagOpen) (hr : x.rest = c :: l) (h1 : 0x61 ≤ c) (h2 : c ≤ 0x7A) :
    step E refs x = { x with st := .tagName, tag := ⟨false, [], false, []⟩ } := by
  have h : Spec.HtmlTok.isAlpha c = true := by simp [Spec.HtmlTok.isAlpha, Spec.HtmlTok.isLower, h1, h2]
  have h3 : c ≠ 0x21 := by omega
  have h4 : c ≠ 0x2F := by omega
  one_row

theorem row_open_end (l : List Nat) (hst : x.st = .tagOpen) (hr : x.rest = 0x2F :: l) :
    step E refs x = { x with st := .endTagOpen, rest := l } := by
  one_row

theorem row_open_bang (l : List Nat) (hst : x.st = .tagOpen) (hr : x.rest = 0x21 :: l) :
    step E refs x = { x with st := .markupDecl, rest := l } := by
  one_row

theorem row_end_name (c : Nat) (l : List Nat) (hst : x.st = .endTagOpen) (hr : x.rest = c :: l) (h1 : 0x61 ≤ c) (h2 : c ≤ 0x7A) :
    step E refs x = { x with st := .tagName, tag := ⟨true, [], false, []⟩ } := by
  have h : Spec.HtmlTok.isAlpha c = true := by simp [Spec.HtmlTok.isAlpha, Spec.HtmlTok.isLower, h1, h2]
  one_row

theorem row_name (c : Nat) (l : List Nat) (hst : x.st = .tagName) (hr : x.rest = c :: l) (h : NameChar c) :
    step E refs x = { x with rest := l, tag := { x.tag with name := x.tag.name ++ [c] } } := by
  obtain ⟨h1, h2⟩ := h
  simp only [List.mem_cons, List.not_mem_nil, or_false, not_or] at h1
  have h3 : Spec.HtmlTok.isUpper c = false := by simp [Spec.HtmlTok.isUpper]; omega
  one_row

theorem row_name_gt (l : List Nat) (hst : x.st = .tagName) (hr : x.rest = 0x3E :: l) :
    step E refs x = Spec.HtmlTok.emitTag E { x with st := .data, rest := l } := by
  one_row

theorem row_name_sp (l : List Nat) (hst : x.st = .tagName) (hr : x.rest = 0x20 :: l) :
    step E refs x = { x with st := .beforeAttrName, rest := l } := by
  one_row

theorem row_after_gt (l : List Nat) (hst : x.st = .afterAttrValue) (hr : x.rest = 0x3E :: l) :
    step E refs x = Spec.HtmlTok.emitTag E { x with st := .data, rest := l } := by
  one_row

theorem row_after_sp (l : List Nat) (hst : x.st = .afterAttrValue) (hr : x.rest = 0x20 :: l) :
    step E refs x = { x with st := .beforeAttrName, rest := l } := by
  one_row

theorem row_attr_new (c : Nat) (l : List Nat) (hst : x.st = .beforeAttrName) (hr : x.rest = c :: l) (h : NameChar c) (h' : c ≠ 0x3D) :
    step E refs x = { x with st := .attrName, tag := { x.tag with attrs := ([], []) :: x.tag.attrs } } := by
  obtain ⟨h1, h2⟩ := h
  simp only [List.mem_cons, List.not_mem_nil, or_false, not_or] at h1
  one_row

theorem row_attr_name (c : Nat) (l n v : List Nat) (a) (hst : x.st = .attrName) (hr : x.rest = c :: l) (h : NameChar c) (h' : c ≠ 0x3D)
    (ha : x.tag.attrs = (n, v) :: a) :
    step E refs x = { x with rest := l, tag := { x.tag with attrs := (n ++ [c], v) :: a } } := by
  obtain ⟨h1, h2⟩ := h
  simp only [List.mem_cons, List.not_mem_nil, or_false, not_or] at h1
  have h3 : Spec.HtmlTok.isUpper c = false := by simp [Spec.HtmlTok.isUpper]; omega
  one_row

theorem row_attr_eq (l : List Nat) (hst : x.st = .attrName) (hr : x.rest = 0x3D :: l) :
    step E refs x = { x with st := .beforeAttrValue, rest := l } := by
  one_row

theorem row_attr_quote (l : List Nat) (hst : x.st = .beforeAttrValue) (hr : x.rest = 0x22 :: l) :
    step E refs x = { x with st := .attrValueDq, rest := l } := by
  one_row

theorem row_value (c : Nat) (l n v : List Nat) (a) (hst : x.st = .attrValueDq) (hr : x.rest = c :: l) (h1 : c ≠ 0x22) (h2 : c ≠ 0x26)
    (h3 : c ≠ 0) (ha : x.tag.attrs = (n, v) :: a) :
    step E refs x = { x with rest := l, tag := { x.tag with attrs := (n, v ++ [c]) :: a } } := by
  one_row

theorem row_value_amp (l : List Nat) (hst : x.st = .attrValueDq) (hr : x.rest = 0x26 :: l) :
    step E refs x = { x with st := .charRef, ret := .attrValueDq, rest := l } := by
  one_row

theorem row_value_end (l : List Nat) (hst : x.st = .attrValueDq) (hr : x.rest = 0x22 :: l) :
    step E refs x = { x with st := .afterAttrValue, rest := l } := by
  one_row

theorem row_doctype (l : List Nat) (hst : x.st = .doctype) (hr : x.rest = 0x20 :: l) :
    step E refs x = { x with st := .beforeDoctypeName, rest := l } := by
  one_row

theorem row_doctype_first (c : Nat) (l : List Nat) (hst : x.st = .beforeDoctypeName) (hr : x.rest = c :: l) (h : NameChar c) :
    step E refs x = { x with st := .doctypeName, rest := l, dtName := [c], pub := none, sys := none, quirks := false } := by
  obtain ⟨h1, h2⟩ := h
  simp only [List.mem_cons, List.not_mem_nil, or_false, not_or] at h1
  have h3 : Spec.HtmlTok.isUpper c = false := by simp [Spec.HtmlTok.isUpper]; omega
  one_row

theorem row_doctype_name (c : Nat) (l : List Nat) (hst : x.st = .doctypeName) (hr : x.rest = c :: l) (h : NameChar c) :
    step E refs x = { x with rest := l, dtName := x.dtName ++ [c] } := by
  obtain ⟨h1, h2⟩ := h
  simp only [List.mem_cons, List.not_mem_nil, or_false, not_or] at h1
  have h3 : Spec.HtmlTok.isUpper c = false := by simp [Spec.HtmlTok.isUpper]; omega
  one_row

theorem row_doctype_gt (l : List Nat) (hst : x.st = .doctypeName) (hr : x.rest = 0x3E :: l) :
    step E refs x = { x with st := .data, rest := l, sink := E.emit x.sink (.doctype x.dtName x.pub x.sys x.quirks) } := by
  one_row

theorem row_cs_dash (l : List Nat) (hst : x.st = .commentStart) (hr : x.rest = 0x2D :: l) :
    step E refs x = { x with st := .commentStartDash, rest := l } := by
  one_row

theorem row_cs_any (c : Nat) (l : List Nat) (hst : x.st = .commentStart) (hr : x.rest = c :: l) (h1 : c ≠ 0x2D) (h2 : c ≠ 0x3E) :
    step E refs x = { x with st := .comment } := by
  one_row

theorem row_csd_dash (l : List Nat) (hst : x.st = .commentStartDash) (hr : x.rest = 0x2D :: l) :
    step E refs x = { x with st := .commentEnd, rest := l } := by
  one_row

theorem row_csd_any (c : Nat) (l : List Nat) (hst : x.st = .commentStartDash) (hr : x.rest = c :: l) (h1 : c ≠ 0x2D) (h2 : c ≠ 0x3E) :
    step E refs x = { x with st := .comment, com := x.com ++ [0x2D] } := by
  one_row

theorem row_com_lt (l : List Nat) (hst : x.st = .comment) (hr : x.rest = 0x3C :: l) :
    step E refs x = { x with st := .commentLt, com := x.com ++ [0x3C], rest := l } := by
  one_row

theorem row_com_dash (l : List Nat) (hst : x.st = .comment) (hr : x.rest = 0x2D :: l) :
    step E refs x = { x with st := .commentEndDash, rest := l } := by
  one_row

theorem row_com_any (c : Nat) (l : List Nat) (hst : x.st = .comment) (hr : x.rest = c :: l) (h1 : c ≠ 0x3C) (h2 : c ≠ 0x2D) (h3 : c ≠ 0) :
    step E refs x = { x with com := x.com ++ [c], rest := l } := by
  one_row

theorem row_ed_dash (l : List Nat) (hst : x.st = .commentEndDash) (hr : x.rest = 0x2D :: l) :
    step E refs x = { x with st := .commentEnd, rest := l } := by
  one_row

theorem row_ed_any (c : Nat) (l : List Nat) (hst : x.st = .commentEndDash) (hr : x.rest = c :: l) (h1 : c ≠ 0x2D) :
    step E refs x = { x with st := .comment, com := x.com ++ [0x2D] } := by
  one_row

theorem row_end_gt (l : List Nat) (hst : x.st = .commentEnd) (hr : x.rest = 0x3E :: l) :
    step E refs x = { x with st := .data, rest := l, sink := E.emit x.sink (.comment x.com) } := by
  one_row

theorem row_lt_bang (l : List Nat) (hst : x.st = .commentLt) (hr : x.rest = 0x21 :: l) :
    step E refs x = { x with st := .commentLtBang, com := x.com ++ [0x21], rest := l } := by
  one_row

theorem row_lt_lt (l : List Nat) (hst : x.st = .commentLt) (hr : x.rest = 0x3C :: l) :
    step E refs x = { x with com := x.com ++ [0x3C], rest := l } := by
  one_row

theorem row_lt_any (c : Nat) (l : List Nat) (hst : x.st = .commentLt) (hr : x.rest = c :: l) (h1 : c ≠ 0x21) (h2 : c ≠ 0x3C) :
    step E refs x = { x with st := .comment } := by
  one_row

theorem row_bang_dash (l : List Nat) (hst : x.st = .commentLtBang) (hr : x.rest = 0x2D :: l) :
    step E refs x = { x with st := .commentLtBangDash, rest := l } := by
  one_row

theorem row_bang_any (c : Nat) (l : List Nat) (hst : x.st = .commentLtBang) (hr : x.rest = c :: l) (h1 : c ≠ 0x2D) :
    step E refs x = { x with st := .comment } := by
  one_row

theorem row_bd_dash (l : List Nat) (hst : x.st = .commentLtBangDash) (hr : x.rest = 0x2D :: l) :
    step E refs x = { x with st := .commentLtBangDashDash, rest := l } := by
  one_row

theorem row_bd_any (c : Nat) (l : List Nat) (hst : x.st = .commentLtBangDash) (hr : x.rest = c :: l) (h1 : c ≠ 0x2D) :
    step E refs x = { x with st := .commentEndDash } := by
  one_row

theorem row_bdd (hst : x.st = .commentLtBangDashDash) (c : Nat) (l : List Nat) (hr : x.rest = c :: l) :
    step E refs x = { x with st := .commentEnd } := by
  one_row

end rows

end Verif.Proof.HtmlRoundTrip
