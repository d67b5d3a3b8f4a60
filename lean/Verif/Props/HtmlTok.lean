import Verif.Proof.HtmlTokConf
/- Properties C96 and C97: the HTML tokenizer. -/
namespace Verif.Props.HtmlTok
open Verif.Model.HtmlTok Verif.Spec.HtmlTokBridge Verif.Proof.HtmlTok
open Verif.Spec.HtmlTok (steps start Refs)
open Verif.Spec.Infra (normNL)
variable {σ : Type}

/-! Sample stages, look ups and texts. -/

def codes (s : String) : List Nat := s.toList.map Char.toNat

/-- No names. -/
def noNames : Find := fun _ => some none

/-- One name, "amp". -/
def amp : Find := fun s => some (if (codes "amp").isPrefixOf s then some (codes "amp", 0x26, 0) else none)

/-- Every start tag begins a script. -/
def scripts : Sink (List Tok) :=
  ⟨fun l t => l ++ [t], fun l => match l.getLast? with | some (.startTag _ _ _) => some .scriptData | _ => none, fun _ => none⟩

theorem switch_record (node : Option Bool) : SwitchOk (record node) := by
  intro s st h; cases h

theorem switch_scripts : SwitchOk scripts := by
  intro s st h
  unfold scripts at h
  dsimp only at h
  split at h
  · cases h; exact Or.inr (Or.inr (Or.inl rfl))
  · cases h

theorem agree_none : Agree (fun _ => True) noNames [] := by
  intro s _
  refine ⟨none, rfl, ?_⟩
  unfold Spec.HtmlTok.longest
  symm
  induction s.length with
  | zero => rfl
  | succ n ih => exact ih

theorem agree_amp : Agree (fun _ => True) amp [(codes "amp", [0x26])] := by
  intro s _
  refine ⟨_, rfl, ?_⟩
  have hc : codes "amp" = [0x61, 0x6D, 0x70] := by decide +kernel
  rw [hc]
  have key : ∀ n, Spec.HtmlTok.longestTo [([0x61, 0x6D, 0x70], [0x26])] s n =
      if 3 ≤ n ∧ s.take 3 = [0x61, 0x6D, 0x70] then some ([0x61, 0x6D, 0x70], [0x26]) else none := by
    intro n
    induction n with
    | zero => simp [Spec.HtmlTok.longestTo]
    | succ n ih =>
      rw [Spec.HtmlTok.longestTo, ih]
      simp only [List.find?_cons, List.find?_nil]
      by_cases h : [0x61, 0x6D, 0x70] = s.take (n + 1)
      · rw [show ([0x61, 0x6D, 0x70] == s.take (n + 1)) = true by simpa using h]
        have hl : min (n + 1) s.length = 3 := by have := congrArg List.length h; simpa using this.symm
        have h3 : s.take 3 = [0x61, 0x6D, 0x70] := by
          have := congrArg (List.take 3) h
          rw [List.take_take, Nat.min_eq_left (by omega)] at this
          exact this.symm
        show some _ = ite _ _ _
        rw [if_pos ⟨by omega, h3⟩]
      · rw [show ([0x61, 0x6D, 0x70] == s.take (n + 1)) = false by simpa using h]
        dsimp only
        by_cases h3 : s.take 3 = [0x61, 0x6D, 0x70]
        · by_cases hn : 3 ≤ n
          · rw [if_pos ⟨hn, h3⟩, if_pos ⟨by omega, h3⟩]
          · have : n ≠ 2 := by rintro rfl; exact h h3.symm
            rw [if_neg (by omega), if_neg (by omega)]
        · rw [if_neg (fun x => h3 x.2), if_neg (fun x => h3 x.2)]
  unfold Spec.HtmlTok.longest
  rw [key]
  by_cases h : [0x61, 0x6D, 0x70] <+: s
  · have h3 : s.take 3 = [0x61, 0x6D, 0x70] := (List.prefix_iff_eq_take.mp h).symm
    rw [if_pos (by simpa using h), if_pos ⟨h.length_le, h3⟩]
    rfl
  · rw [if_neg (by simpa using h), if_neg]
    · rfl
    · rintro ⟨_, h3⟩
      exact h (List.prefix_iff_eq_take.mpr h3.symm)

/-! C96. -/

/-- C96. Whatever the text is and whatever the tree construction stage does with the tokens, tokenizing ends, after a number of
calls that is linear in the length of the text, and no assertion fails and nothing is read behind the end of a buffer - as long
as the look up of character references is defined. -/
theorem C96_total (P : Nat → Prop) (S : Sink σ) (hS : SwitchOk S) (find : Find) (hF : FindOk P find) (h10 : P 10) (s : σ) (l : List Nat)
    (hl : ∀ c ∈ l, P c) : ∃ m, ∀ f, 24 * l.length + 39 ≤ f → tokenize S find f s l = some m :=
  total_chars P S hS find hF h10 s l hl

/-- A stage that switches, a look up that finds something, and a text with a script, an escaped ampersand, a duplicate attribute
and an unfinished tag. -/
example : SwitchOk scripts ∧ FindOk (fun _ => True) amp ∧
    (tokenize scripts amp 2000 [] (codes "a&amp;<p q=r q='s'>1<2</p><!doctype x><b")).map (·.sink) =
      some [.char 0x61, .char 0x26, .char 0x3B, .startTag [0x70] [([0x71], [0x72])] false, .char 0x31, .char 0x3C, .char 0x32, .endTag [0x70] [] false,
        .doctype ⟨[0x78], [], [], false⟩, .eof] :=
  ⟨switch_scripts, agree_find agree_amp, by decide +kernel⟩

/-! C97. -/

/-- C97, in full: for every text, tree construction stage and table of character references, the tree construction stage gets
the tokens the standard says, in the same order, and nothing else. -/
def C97_statement : Prop :=
  ∀ (σ : Type) (S : Sink σ) (find : Find) (refs : Refs), SwitchOk S → Agree (fun _ => True) find refs →
    (∀ r ∈ refs, r.1.length ≤ 32) → ∀ (s : σ) (l : List Nat), ∃ m k,
      (∀ f, 24 * l.length + 39 ≤ f → tokenize S find f s l = some m) ∧
      (steps (envOf S) refs k (start s (normNL l))).ended = true ∧ m.sink = (steps (envOf S) refs k (start s (normNL l))).sink

/-- A text for which the library delivers `a` although the standard says `b`. -/
def Differs (S : Sink (List Tok)) (find : Find) (refs : Refs) (l : List Nat) (a b : List Tok) : Prop :=
  (tokenize S find (24 * l.length + 39) [] l).map (·.sink) = some a ∧
    (∃ k, (steps (envOf S) refs k (start [] (normNL l))).ended = true ∧ (steps (envOf S) refs k (start [] (normNL l))).sink = b) ∧ a ≠ b

/-- A numeric reference swallows the end of the file: the end-of-file token never comes. -/
theorem C97_numeric : Differs (record none) noNames [] (codes "&#65;x") [.char 0x41, .char 0x78] [.char 0x41, .char 0x78, .eof] :=
  ⟨by decide +kernel, ⟨20, by decide +kernel⟩, by decide⟩

/-- Two of them swallow a character, and so on. -/
theorem C97_numeric2 : Differs (record none) noNames [] (codes "&#65;&#66;xy") [.char 0x41, .char 0x42, .char 0x78]
    [.char 0x41, .char 0x42, .char 0x78, .char 0x79, .eof] :=
  ⟨by decide +kernel, ⟨30, by decide +kernel⟩, by decide⟩

/-- Numeric references are taken modulo 2^32. -/
theorem C97_wrap : Differs (record none) noNames [] (codes "&#4294967361;") [.char 0x41] [.char 0xFFFD, .eof] :=
  ⟨by decide +kernel, ⟨30, by decide +kernel⟩, by decide⟩

/-- A tag name behind "<!--<" in a script ends up in the before attribute name state: the start tag of the script comes again,
here with an attribute that was never there. -/
theorem C97_script : Differs scripts noNames [] (codes "<s><!--<b c>")
    [.startTag [0x73] [] false, .char 0x3C, .char 0x21, .char 0x2D, .char 0x2D, .char 0x3C, .char 0x62, .char 0x20,
      .startTag [0x73] [([0x63], [])] false, .eof]
    [.startTag [0x73] [] false, .char 0x3C, .char 0x21, .char 0x2D, .char 0x2D, .char 0x3C, .char 0x62, .char 0x20,
      .char 0x63, .char 0x3E, .eof] :=
  ⟨by decide +kernel, ⟨40, by decide +kernel⟩, by decide⟩

/-- A NUL in a comment comes before the comment, as a character. -/
theorem C97_comment : Differs (record none) noNames [] (codes "<!--" ++ 0 :: codes "-->") [.char 0xFFFD, .comment [], .eof]
    [.comment [0xFFFD], .eof] :=
  ⟨by decide +kernel, ⟨30, by decide +kernel⟩, by decide⟩

/-- Within HTML content, a CDATA section is taken to be one. -/
theorem C97_cdata_html : Differs (record (some true)) noNames [] (codes "<![CDATA[x]]>") [.char 0x78, .eof]
    [.comment (codes "[CDATA[x]]"), .eof] :=
  ⟨by decide +kernel, ⟨30, by decide +kernel⟩, by decide +kernel⟩

/-- Within foreign content, a CDATA section is taken to be a comment. -/
theorem C97_cdata_foreign : Differs (record (some false)) noNames [] (codes "<![CDATA[x]]>") [.comment (codes "[CDATA[x]]"), .eof]
    [.char 0x78, .eof] :=
  ⟨by decide +kernel, ⟨30, by decide +kernel⟩, by decide +kernel⟩

/-- A carriage return at the end, while a look up waits for more: two end-of-file tokens. -/
theorem C97_return : Differs (record none) amp [(codes "amp", [0x26])] (codes "&amp\r") [.char 0x26, .char 0xA, .eof, .eof]
    [.char 0x26, .char 0xA, .eof] :=
  ⟨by decide +kernel, ⟨30, by decide +kernel⟩, by decide⟩

theorem C97_statement_false : ¬ C97_statement := by
  intro h
  obtain ⟨m, k, h1, h2, h3⟩ := h _ (record none) noNames [] (switch_record none) agree_none (by simp) [] (codes "&#65;x")
  obtain ⟨w1, ⟨j, w2, w3⟩, w4⟩ := C97_numeric
  rw [h1 _ (Nat.le_refl _)] at w1
  injection w1 with w1
  rw [ended_unique _ _ _ _ _ h2 w2] at h3
  exact w4 (w1.symm.trans (h3.trans w3))

/-- C97. Unless the text ends in a carriage return or the run meets one of the four situations in which the library goes another
way, everything the tree construction stage gets is what it gets from the standard's tokenizer up to some point. -/
theorem C97_prefix_partial (P : Nat → Prop) (S : Sink σ) (hS : SwitchOk S) (find : Find) (refs : Refs) (hA : Agree P find refs)
    (hN : ∀ r ∈ refs, r.1.length ≤ 32) (h10 : P 10) (s : σ) (l : List Nat) (hl : ∀ c ∈ l, P c) (hcr : l.getLast? ≠ some 13)
    (hx : ∀ k, ¬ Trouble S (steps (envOf S) refs k (start s (normNL l)))) :
    ∃ m k, (∀ f, 24 * l.length + 39 ≤ f → tokenize S find f s l = some m) ∧
      m.sink = (steps (envOf S) refs k (start s (normNL l))).sink := by
  obtain ⟨m, k, h1, h2, _⟩ := conforms_chars P S hS find refs hA hN h10 s l hl hcr hx
  exact ⟨m, k, h1, h2⟩

/-- The hypotheses hold for a text with a numeric reference, of which the end is lost. -/
example : (∀ k, ¬ Trouble (record none) (steps (envOf (record none)) [] k (start [] (normNL (codes "<i>&#65;x"))))) ∧
    (tokenize (record none) noNames 300 [] (codes "<i>&#65;x")).map (·.sink) = some [.startTag [0x69] [] false, .char 0x41, .char 0x78] ∧
    (steps (envOf (record none)) [] 13 (start [] (normNL (codes "<i>&#65;x")))).sink = [.startTag [0x69] [] false, .char 0x41, .char 0x78] :=
  ⟨all_steps _ _ _ (fun x => ¬ Trouble (record none) x) 30 (by decide +kernel) (by decide +kernel), by decide +kernel, by decide +kernel⟩

/-- C97. If besides there is no numeric reference in the text, it gets all the tokens, the end of the file included. -/
theorem C97_partial (P : Nat → Prop) (S : Sink σ) (hS : SwitchOk S) (find : Find) (refs : Refs) (hA : Agree P find refs)
    (hN : ∀ r ∈ refs, r.1.length ≤ 32) (h10 : P 10) (s : σ) (l : List Nat) (hl : ∀ c ∈ l, P c) (hcr : l.getLast? ≠ some 13)
    (hx : ∀ k, ¬ Trouble S (steps (envOf S) refs k (start s (normNL l))) ∧
      (steps (envOf S) refs k (start s (normNL l))).st ≠ .numericEnd) :
    ∃ m k, (∀ f, 24 * l.length + 39 ≤ f → tokenize S find f s l = some m) ∧
      (steps (envOf S) refs k (start s (normNL l))).ended = true ∧
      m.sink = (steps (envOf S) refs k (start s (normNL l))).sink := by
  obtain ⟨m, k, h1, h2, h3⟩ := conforms_chars P S hS find refs hA hN h10 s l hl hcr (fun k => (hx k).1)
  exact ⟨m, k, h1, h3 (fun k => (hx k).2), h2⟩

/-- The hypotheses hold for a text with a reference, a script and a comment; this is what comes out. -/
example : (∀ k, ¬ Trouble scripts (steps (envOf scripts) [(codes "amp", [0x26])] k (start [] (normNL (codes "a&amp;\r\n<b c=d>1<2</b><!--e-->")))) ∧
      (steps (envOf scripts) [(codes "amp", [0x26])] k (start [] (normNL (codes "a&amp;\r\n<b c=d>1<2</b><!--e-->")))).st ≠ .numericEnd) ∧
    (tokenize scripts amp 2000 [] (codes "a&amp;\r\n<b c=d>1<2</b><!--e-->")).map (·.sink) =
      some [.char 0x61, .char 0x26, .char 0x3B, .char 0xA, .startTag [0x62] [([0x63], [0x64])] false, .char 0x31, .char 0x3C, .char 0x32,
        .endTag [0x62] [] false, .comment [0x65], .eof] :=
  ⟨all_steps _ _ _ (fun x => ¬ Trouble scripts x ∧ x.st ≠ .numericEnd) 60 (by decide +kernel) (by decide +kernel), by decide +kernel⟩

end Verif.Props.HtmlTok
