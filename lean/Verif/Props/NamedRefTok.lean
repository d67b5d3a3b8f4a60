import Verif.Proof.NamedRefTok
import Verif.Props.NamedRef
import Verif.Props.HtmlRoundTrip
/- Property C101: the tokenizer with the library's own table of named character references. -/
namespace Verif.Props.NamedRefTok
open Verif.Model.NamedRef Verif.Spec.NamedRef Verif.Model.HtmlTok Verif.Spec.HtmlTokBridge Verif.Proof.NamedRef
open Verif.Spec.HtmlTok (steps start longest)
open Verif.Spec.HtmlAtom (codes)
open Verif.Spec.Infra (normNL)
open Verif.Spec Verif.Proof.HtmlRoundTrip Verif.Props.Unicode Verif.Model.Unicode
open Verif.Spec.HtmlSerial (Dom Shows HtmlElement voidNames rawNames)
open Verif.Spec.HtmlRoundTrip
variable {σ : Type}

/-- C101, in full: with the table of the library, tokenizing is defined for all texts. -/
def C101_statement : Prop :=
  ∀ (σ : Type) (S : Sink σ), SwitchOk S → ∀ (s : σ) (l : List Nat), (∀ c ∈ l, c < 0x110000) →
    ∃ m, ∀ f, 24 * l.length + 39 ≤ f → tokenize S find f s l = some m

theorem C101_statement_false : ¬ C101_statement := by
  intro h
  obtain ⟨m, hm⟩ := h _ (record none) (HtmlTok.switch_record none) [] (codes "&zwnj<b>") (by decide +kernel)
  have := hm 400 (by decide +kernel)
  rw [NamedRef.C100_tokenize] at this
  cases this

/-- C101. It is for all texts in which every ampersand is followed by something that does not begin with z or Z or by a whole name
with its semicolon, for every tree construction stage. -/
theorem C101_partial (S : Sink σ) (hS : SwitchOk S) (s : σ) (l : List Nat) (hl : ∀ c ∈ l, c < 2 ^ 32) (h : SafeText l) :
    ∃ m, ∀ f, 24 * l.length + 39 ≤ f → tokenize S find f s l = some m := by
  obtain ⟨m, h1, _⟩ := Verif.Proof.HtmlTok.tokenize_ok Safe S hS find (safe_text S) (fun _ _ => True)
    ⟨fun _ _ _ _ _ _ _ _ _ => trivial, fun _ _ _ _ _ => trivial, fun _ _ _ => trivial⟩ s l (fun _ => safe_late) (safe_start s hl h)
  exact ⟨m, h1⟩

/-- C101. And the tree construction stage gets what it gets from the standard's tokenizer with the standard's list of names, unless
the text ends in a carriage return or the run meets what C97 is about. Only the references that the standard itself looks up
matter here: "&z" in a comment, for example, does not. -/
theorem C101_tokens_partial (S : Sink σ) (hS : SwitchOk S) (s : σ) (l : List Nat) (hl : ∀ c ∈ l, c < 2 ^ 32) (hcr : l.getLast? ≠ some 13)
    (hx : ∀ k, ¬ Trouble S (steps (envOf S) names k (start s (normNL l))) ∧
      (steps (envOf S) names k (start s (normNL l))).st ≠ .numericEnd)
    (hz : ∀ k, (steps (envOf S) names k (start s (normNL l))).st = .namedRef →
      SafeRef (steps (envOf S) names k (start s (normNL l))).rest) :
    ∃ m k, (∀ f, 24 * l.length + 39 ≤ f → tokenize S find f s l = some m) ∧
      (steps (envOf S) names k (start s (normNL l))).ended = true ∧
      m.sink = (steps (envOf S) names k (start s (normNL l))).sink := by
  obtain ⟨m, k, h1, h2, h3⟩ := conforms_safe S hS s l hl hcr hz (fun k => (hx k).1)
  exact ⟨m, k, h1, h3 (fun k => (hx k).2), h2⟩

/-- C101. Escaped text is read back with the table of the library, whatever it is: "&zwnj<" too. -/
theorem C101_text (S : Sink σ) (hS : SwitchOk S) (s : σ) (ct : CharT) (t : List Nat) (ht : ∀ c ∈ t, IsScalar c) (hcr : 0xD ∉ t) :
    ∃ w m, Verif.Model.HtmlSerial.escape ct .c32 false (formOf ct t) = some w ∧
      (∀ f, 24 * w.length + 39 ≤ f → tokenize S find f s w = some m) ∧
      m.sink = (t.map Tok.char ++ [Tok.eof]).foldl S.emit s := by
  obtain ⟨y, p, hy⟩ := text_path (S := S) knows_names t [] s (start s (Verif.Spec.HtmlSerial.escape false t)) ⟨rfl, by simp [start], rfl, rfl⟩
  obtain ⟨m, h1, h2⟩ := read_safe S hS s _ _ (escape_small false t ht) (escape_cr false t hcr) y p hy
  refine ⟨_, m, Verif.Proof.HtmlSerial.escape_eq ct .c32 false _ t ⟨ht, rfl⟩, h1, ?_⟩
  rw [h2, List.foldl_append]; rfl

/-- C101. And what is written for a tree (see C99). -/
theorem C101_tree (S : Sink σ) (hS : ∀ s, S.switch s = none) (s : σ) (ct : CharT) (nd : Bool)
    (n : Verif.Model.HtmlSerial.Node) (D : Dom) (hD : Shows ct n D) (hp : PlainAll D.kids)
    (hv : ¬ HtmlElement voidNames D.data) (hr : ¬ HtmlElement rawNames D.data)
    (ht : nd = true ∨ (∃ ns pre name attrs, D.data = .element ns pre name attrs) ∨ ∀ k ∈ D.kids, ¬ k.data.isText)
    (hP : ∀ c ∈ Verif.Spec.HtmlSerial.serialize D, c < 2 ^ 32) :
    ∃ w m, Verif.Model.HtmlSerial.serialize ct .c32 nd n = some w ∧
      (∀ f, 24 * w.length + 39 ≤ f → tokenize S find f s w = some m) ∧
      m.sink = (tokensAll D.kids ++ [Tok.eof]).foldl S.emit s := by
  have hw : Verif.Spec.HtmlSerial.serialize D = Verif.Spec.HtmlSerial.writes D.data D.kids := by
    unfold Verif.Spec.HtmlSerial.serialize; rw [if_neg hv]
  obtain ⟨y, p, hy⟩ := nodes_path (S := S) knows_names D.data hr [] D.kids hp s (calm_all hS _ _) (start s (Verif.Spec.HtmlSerial.serialize D))
    ⟨rfl, by simp [start, hw], rfl, rfl⟩
  obtain ⟨m, h1, h2⟩ := read_safe S (fun a b h => by rw [hS] at h; cases h) s _ _ hP
    (by rw [hw]; exact writes_cr _ hr _ hp) y p hy
  refine ⟨_, m, HtmlSerial.C93_partial ct .c32 nd n D hD (plain_serial _ hp) ht, h1, ?_⟩
  rw [h2, List.foldl_append]; rfl

/-! Examples. -/

/-- References with and without semicolon, one of them with a name in z. -/
theorem sample_safe : SafeText (codes "<p title='&notit;'>&ampx&zwnj;y&\r\n<b>&#122;") := by
  refine safeText_of fun i hi h => ?_
  have key : ∀ i < 43, (codes "<p title='&notit;'>&ampx&zwnj;y&\r\n<b>&#122;")[i]? = some 0x26 →
      ((codes "<p title='&notit;'>&ampx&zwnj;y&\r\n<b>&#122;").drop (i + 1)).head? ∉ [some 0x7A, some 0x5A] ∨
      codes "zwnj;" <+: (codes "<p title='&notit;'>&ampx&zwnj;y&\r\n<b>&#122;").drop (i + 1) := by decide +kernel
  rw [show (codes "<p title='&notit;'>&ampx&zwnj;y&\r\n<b>&#122;").length = 43 by decide +kernel] at hi
  rcases key i hi h with h | h
  · simp only [List.mem_cons, List.not_mem_nil, or_false, not_or] at h
    exact Or.inl h
  · exact Or.inr ⟨(codes "zwnj;", [0x200C]), zwnj_name, by decide +kernel, h⟩

example : ∃ m, ∀ f, 24 * (codes "<p title='&notit;'>&ampx&zwnj;y&\r\n<b>&#122;").length + 39 ≤ f →
    tokenize (record none) find f [] (codes "<p title='&notit;'>&ampx&zwnj;y&\r\n<b>&#122;") = some m :=
  C101_partial (record none) (HtmlTok.switch_record none) [] _ (by decide +kernel) sample_safe

/-- What the standard's tokenizer does with a shorter text ends after 20 steps, meets nothing that C97 is about, and looks up safe
references; the tokens are those. -/
example : ∃ m, (∀ f, 24 * (codes "<!--&zwnj<-->&lt").length + 39 ≤ f →
      tokenize (record none) find f [] (codes "<!--&zwnj<-->&lt") = some m) ∧
    m.sink = [.comment (codes "&zwnj<"), .char 0x3C, .eof] := by
  have hend : (steps (envOf (record none)) names 20 (start [] (normNL (codes "<!--&zwnj<-->&lt")))).ended = true := by
    decide +kernel
  obtain ⟨m, k, h1, h2, h3⟩ := C101_tokens_partial (record none) (HtmlTok.switch_record none) [] (codes "<!--&zwnj<-->&lt")
    (by decide +kernel) (by decide +kernel)
    (Verif.Proof.HtmlTok.all_steps _ _ _ (fun x => ¬ Trouble (record none) x ∧ x.st ≠ .numericEnd) 20 hend (by decide +kernel))
    (fun k hk => Or.inl (Verif.Proof.HtmlTok.all_steps (envOf (record none)) names
      (start [] (normNL (codes "<!--&zwnj<-->&lt")))
      (fun x => x.st = .namedRef → x.rest.head? ≠ some 0x7A ∧ x.rest.head? ≠ some 0x5A) 20 hend (by decide +kernel) k hk))
  refine ⟨m, h1, ?_⟩
  rw [h3, Verif.Proof.HtmlTok.ended_unique _ _ _ k 20 h2 hend]
  decide +kernel

/-- Escaped, the text of C100's finding is harmless. -/
example : ∃ w m, Verif.Model.HtmlSerial.escape .c32 .c32 false (codes "&zwnj<b>") = some w ∧
    (∀ f, 24 * w.length + 39 ≤ f → tokenize (record none) find f [] w = some m) ∧
    m.sink = ((codes "&zwnj<b>").map Tok.char ++ [Tok.eof]).foldl (record none).emit [] :=
  C101_text (record none) (HtmlTok.switch_record none) [] .c32 (codes "&zwnj<b>") (by decide +kernel) (by decide +kernel)

example : ∃ w m, Verif.Model.HtmlSerial.serialize .c32 .c32 false HtmlRoundTrip.sample = some w ∧
    (∀ f, 24 * w.length + 39 ≤ f → tokenize (record none) find f [] w = some m) ∧
    m.sink = (tokensAll HtmlRoundTrip.sample'.kids ++ [Tok.eof]).foldl (record none).emit [] := by
  refine C101_tree (record none) (fun _ => rfl) [] .c32 false HtmlRoundTrip.sample HtmlRoundTrip.sample' HtmlRoundTrip.sample_shows
    HtmlRoundTrip.sample_plain (by decide +kernel) (by decide +kernel) (.inr (.inr ?_)) (by decide +kernel)
  intro k hk
  simp only [HtmlRoundTrip.sample', Dom.kids, List.mem_cons, List.not_mem_nil, or_false] at hk
  rcases hk with rfl | rfl <;> exact id

end Verif.Props.NamedRefTok
