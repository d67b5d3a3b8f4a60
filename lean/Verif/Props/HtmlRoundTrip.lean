import Verif.Proof.HtmlRoundTrip4
import Verif.Props.HtmlTok
import Verif.Props.HtmlSerial
/- Properties C98 and C99: what the serializer writes, the tokenizer reads back. -/
namespace Verif.Props.HtmlRoundTrip
open Verif.Model.Unicode Verif.Spec Verif.Model.HtmlTok Verif.Spec.HtmlTokBridge Verif.Proof.HtmlRoundTrip Verif.Props.Unicode
open Verif.Spec.HtmlTok (steps start Refs)
open Verif.Spec.HtmlAtom (codes)
open Verif.Spec.HtmlSerial (Dom Shows HtmlElement voidNames rawNames)
open Verif.Spec.HtmlRoundTrip
variable {σ : Type}

/-- From a run of the standard's tokenizer to one of the library's. -/
theorem read_back (P : Nat → Prop) (S : Sink σ) (hS : SwitchOk S) (find : Find) (refs : Refs) (hA : Agree P find refs)
    (hN : ∀ r ∈ refs, r.1.length ≤ 32) (h10 : P 10) (s z : σ) (w : List Nat) (hw : ∀ c ∈ w, P c) (hcr : 0xD ∉ w)
    (y : Spec.HtmlTok.C σ) (p : Path S refs (start s w) y) (hy : AtData [] z y) :
    ∃ m, (∀ f, 24 * w.length + 39 ≤ f → tokenize S find f s w = some m) ∧ m.sink = S.emit z .eof := by
  obtain ⟨h1, h2⟩ := to_eof z _ y p hy
  obtain ⟨m, k, h3, h4, h5⟩ := HtmlTok.C97_partial P S hS find refs hA hN h10 s w hw (last_none w hcr)
    (by rw [normNL_none w hcr]; exact fun k => (h1 k).1)
  rw [normNL_none w hcr] at h4 h5
  exact ⟨m, h3, by rw [h5, h2 k h4]⟩

/-- C98. Escaped text is text: whatever characters `t` consists of (but for the carriage return, which the tokenizer normalizes),
escaping it and tokenizing the result gives the characters of `t`, and no tag, comment or document type. -/
theorem C98_text (P : Nat → Prop) (S : Sink σ) (hS : SwitchOk S) (find : Find) (refs : Refs) (hA : Agree P find refs)
    (hN : ∀ r ∈ refs, r.1.length ≤ 32) (hK : Knows refs) (h10 : P 10) (s : σ) (ct : CharT) (t : List Nat)
    (ht : ∀ c ∈ t, IsScalar c) (hcr : 0xD ∉ t) (hP : ∀ c ∈ Spec.HtmlSerial.escape false t, P c) :
    ∃ w m, Model.HtmlSerial.escape ct .c32 false (formOf ct t) = some w ∧
      (∀ f, 24 * w.length + 39 ≤ f → tokenize S find f s w = some m) ∧
      m.sink = (t.map Tok.char ++ [Tok.eof]).foldl S.emit s := by
  obtain ⟨y, p, hy⟩ := text_path (S := S) hK t [] s (start s (Spec.HtmlSerial.escape false t)) ⟨rfl, by simp [start], rfl, rfl⟩
  obtain ⟨m, h1, h2⟩ := read_back P S hS find refs hA hN h10 s _ _ hP (escape_cr false t hcr) y p hy
  refine ⟨_, m, Verif.Proof.HtmlSerial.escape_eq ct .c32 false _ t ⟨ht, rfl⟩, h1, ?_⟩
  rw [h2, List.foldl_append]; rfl

/-- C99. What `to_string` writes for a tree, the tokenizer reads back as the tags, characters, comments and document types of the
tree, in order. Texts and attribute values may be any strings (without carriage return; without NUL in values): none of them ends
its element or attribute early. The tree construction stage is one that does not switch the tokenizer. -/
theorem C99_tree (P : Nat → Prop) (S : Sink σ) (hS : ∀ s, S.switch s = none) (find : Find) (refs : Refs) (hA : Agree P find refs)
    (hN : ∀ r ∈ refs, r.1.length ≤ 32) (hK : Knows refs) (h10 : P 10) (s : σ) (ct : CharT) (nd : Bool)
    (n : Model.HtmlSerial.Node) (D : Dom) (hD : Shows ct n D) (hp : PlainAll D.kids)
    (hv : ¬ HtmlElement voidNames D.data) (hr : ¬ HtmlElement rawNames D.data)
    (ht : nd = true ∨ (∃ ns pre name attrs, D.data = .element ns pre name attrs) ∨ ∀ k ∈ D.kids, ¬ k.data.isText)
    (hP : ∀ c ∈ Spec.HtmlSerial.serialize D, P c) :
    ∃ w m, Model.HtmlSerial.serialize ct .c32 nd n = some w ∧
      (∀ f, 24 * w.length + 39 ≤ f → tokenize S find f s w = some m) ∧
      m.sink = (tokensAll D.kids ++ [Tok.eof]).foldl S.emit s := by
  have hw : Spec.HtmlSerial.serialize D = Spec.HtmlSerial.writes D.data D.kids := by
    unfold Spec.HtmlSerial.serialize; rw [if_neg hv]
  obtain ⟨y, p, hy⟩ := nodes_path (S := S) hK D.data hr [] D.kids hp s (calm_all hS _ _) (start s (Spec.HtmlSerial.serialize D))
    ⟨rfl, by simp [start, hw], rfl, rfl⟩
  obtain ⟨m, h1, h2⟩ := read_back P S (fun a b h => by rw [hS] at h; cases h) find refs hA hN h10 s _ _ hP
    (by rw [hw]; exact writes_cr _ hr _ hp) y p hy
  refine ⟨_, m, HtmlSerial.C93_partial ct .c32 nd n D hD (plain_serial _ hp) ht, h1, ?_⟩
  rw [h2, List.foldl_append]; rfl

/-! Examples. -/

/-- Text that looks like markup. -/
example : ∃ w m, Model.HtmlSerial.escape .c32 .c32 false (codes "<b title=\"&amp;\">-->") = some w ∧
    (∀ f, 24 * w.length + 39 ≤ f → tokenize (record none) fiveFind f [] w = some m) ∧
    m.sink = ((codes "<b title=\"&amp;\">-->").map Tok.char ++ [Tok.eof]).foldl (record none).emit [] :=
  C98_text (fun _ => True) (record none) (HtmlTok.switch_record none) fiveFind five agree_five (by decide +kernel) knows_five trivial []
    .c32 (codes "<b title=\"&amp;\">-->") (by decide +kernel) (by decide +kernel) (fun _ _ => trivial)

/-- A document type, and a paragraph with an attribute, a text, a line break and a comment that have markup in them. -/
def sample : Model.HtmlSerial.Node := .mk .fragment [
  .mk (.doctype (codes "html")) [],
  .mk (.element ⟨HtmlSerial.atomOf .c32 .ns Spec.HtmlSerial.htmlNs, [], HtmlSerial.atomOf .c32 .tag (codes "p"),
    [⟨HtmlSerial.atomOf .c32 .ns [], [], HtmlSerial.atomOf .c32 .attr (codes "title"), codes "\"><br>&quot;"⟩]⟩)
    [HtmlSerial.tx "</p><!--&lt;", HtmlSerial.el "br" [], .mk (.comment (codes "<!- <p>")) []]]

def sample' : Dom := .mk .other [
  .mk (.doctype (codes "html")) [],
  .mk (.element Spec.HtmlSerial.htmlNs [] (codes "p") [⟨[], [], codes "title", codes "\"><br>&quot;"⟩])
    [HtmlSerial.tx' "</p><!--&lt;", HtmlSerial.el' "br" [], .mk (.comment (codes "<!- <p>")) []]]

theorem sample_shows : Shows .c32 sample sample' := by
  unfold sample sample' Shows
  refine ⟨trivial, ?_⟩
  unfold Spec.HtmlSerial.ShowsAll
  constructor
  · unfold Shows
    exact ⟨⟨by decide +kernel, rfl⟩, by unfold Spec.HtmlSerial.ShowsAll; trivial⟩
  · refine HtmlSerial.shows_one _ _ ?_
    unfold Shows
    refine ⟨⟨HtmlSerial.shown_atom _ _ _ HtmlSerial.scalar_html, ⟨by simp, rfl⟩, HtmlSerial.shown_atom _ _ _ (by decide +kernel),
      ⟨HtmlSerial.shown_atom _ _ _ (by simp), ⟨by simp, rfl⟩, HtmlSerial.shown_atom _ _ _ (by decide +kernel), ⟨by decide +kernel, rfl⟩⟩,
      trivial⟩, ?_⟩
    unfold Spec.HtmlSerial.ShowsAll
    refine ⟨HtmlSerial.shows_tx _ (by decide +kernel), ?_⟩
    unfold Spec.HtmlSerial.ShowsAll
    refine ⟨HtmlSerial.shows_el _ _ _ (by decide +kernel) (by unfold Spec.HtmlSerial.ShowsAll; trivial), HtmlSerial.shows_one _ _ ?_⟩
    unfold Shows
    exact ⟨⟨by decide +kernel, rfl⟩, by unfold Spec.HtmlSerial.ShowsAll; trivial⟩

theorem sample_plain : PlainAll sample'.kids := by
  unfold sample' Spec.HtmlSerial.Dom.kids PlainAll
  refine ⟨by unfold Plain; decide +kernel, ?_⟩
  unfold PlainAll
  refine ⟨?_, by unfold PlainAll; trivial⟩
  unfold Plain
  refine ⟨rfl, ⟨⟨0x70, [], rfl, by decide, by decide⟩, by decide +kernel⟩, by decide +kernel, ?_, by decide +kernel, by decide +kernel, ?_⟩
  · intro a ha
    obtain rfl := List.mem_singleton.mp ha
    exact ⟨rfl, by decide +kernel, by decide +kernel, by decide +kernel, by decide +kernel⟩
  · unfold PlainAll
    refine ⟨by unfold HtmlSerial.tx' Plain; decide +kernel, ?_⟩
    unfold PlainAll
    refine ⟨?_, ?_⟩
    · unfold HtmlSerial.el' Plain
      exact ⟨rfl, ⟨⟨0x62, [0x72], rfl, by decide, by decide⟩, by decide +kernel⟩, by decide +kernel, by simp, by simp, fun _ => rfl,
        by unfold PlainAll; trivial⟩
    · unfold PlainAll
      refine ⟨?_, by unfold PlainAll; trivial⟩
      unfold Plain
      refine ⟨by decide +kernel, by decide +kernel, fun a b h => ?_, by decide +kernel, by decide +kernel, fun r h => ?_⟩
      · have key : ∀ i < 8, ¬ ([0x2D, 0x2D] : List Nat) <+: (codes "<!- <p>").drop i := by decide +kernel
        have hl : a.length < 8 := by
          have := congrArg List.length h
          rw [show (codes "<!- <p>").length = 7 by decide +kernel] at this
          simp at this; omega
        refine key a.length hl ?_
        rw [h, List.drop_left]
        exact ⟨b, rfl⟩
      · have := congrArg List.head? h
        rw [show (codes "<!- <p>").head? = some 0x3C by decide +kernel] at this
        cases this

/-- The hypotheses of C99 hold for it; this is what is written and read back. -/
example : (∃ w m, Model.HtmlSerial.serialize .c32 .c32 false sample = some w ∧
      (∀ f, 24 * w.length + 39 ≤ f → tokenize (record none) fiveFind f [] w = some m) ∧
      m.sink = (tokensAll sample'.kids ++ [Tok.eof]).foldl (record none).emit []) ∧
    Model.HtmlSerial.serialize .c32 .c32 false sample =
      some (codes "<!DOCTYPE html><p title=\"&quot;><br>&amp;quot;\">&lt;/p&gt;&lt;!--&amp;lt;<br><!--<!- <p>--></p>") ∧
    tokensAll sample'.kids = [.doctype ⟨codes "html", [], [], false⟩, .startTag (codes "p") [(codes "title", codes "\"><br>&quot;")] false] ++
      (codes "</p><!--&lt;").map Tok.char ++ [.startTag (codes "br") [] false, .comment (codes "<!- <p>"), .endTag (codes "p") [] false] := by
  refine ⟨C99_tree (fun _ => True) (record none) (fun _ => rfl) fiveFind five agree_five (by decide +kernel) knows_five trivial []
    .c32 false sample sample' sample_shows sample_plain (by decide +kernel) (by decide +kernel) (.inr (.inr ?_)) (fun _ _ => trivial),
    by decide +kernel, by decide +kernel⟩
  intro k hk
  simp only [sample', Spec.HtmlSerial.Dom.kids, List.mem_cons, List.not_mem_nil, or_false] at hk
  rcases hk with rfl | rfl <;> exact id

end Verif.Props.HtmlRoundTrip
