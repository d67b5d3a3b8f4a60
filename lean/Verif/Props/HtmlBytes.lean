import Verif.Proof.HtmlBytes
import Verif.Props.HtmlTree
/- Property C112: parsing bytes. -/
namespace Verif.Props.HtmlBytes
open Verif.Model.Coder Verif.Model.Legacy Verif.Model.Meta Verif.Model.HtmlTree Verif.Model.TextDecoder Verif.Model.HtmlBytes
open Verif.Model.HtmlTok (Find feed M)
open Verif.Spec Verif.Spec.HtmlTokBridge Verif.Proof.HtmlBytes
open Verif.Spec.HtmlAtom (codes)
open Verif.Props.HtmlTok (noNames)
open Verif.Props.TextDecoder (withoutMark)

/-- Among the `meta` elements of the document of `p`, the first that declares an encoding declares `e`. -/
def Says (tbl : List Nat → Bool) (find : Find) (f : Nat) (p : List Nat) (e : Enc) : Prop :=
  ∃ s, parse tbl find f p = some (.ok s) ∧ ∃ pre as post, s.dom.filterMap metaOf = pre ++ as :: post ∧
    declared as = some (some e) ∧ ∀ b ∈ pre, declared b = some none

/-- No `meta` element of the document of `p` declares an encoding. -/
def Silent (tbl : List Nat → Bool) (find : Find) (f : Nat) (p : List Nat) : Prop :=
  ∀ s, parse tbl find f p = some (.ok s) → ∀ b ∈ s.dom.filterMap metaOf, declared b = some none

/-- The encoding to go on with (HTML, "changing the encoding while parsing"). -/
def adopted (cur e : Enc) : Enc :=
  if cur = .UTF_16BE ∨ cur = .UTF_16LE then cur
  else if e = .UTF_16BE ∨ e = .UTF_16LE then .UTF_8
  else if e = .x_user_defined then .windows_1252
  else e

/-- The encoding of a text that was first read with `cur`: what the first declaration in it says. -/
def Chosen (tbl : List Nat → Bool) (find : Find) (f : Nat) (text : List Nat) (cur E : Enc) : Prop :=
  ((∀ p, p <+: text → Silent tbl find f p) ∧ E = cur) ∨
  ∃ p e, p <+: text ∧ Says tbl find f p e ∧ (∀ p', p' <+: p → p' ≠ p → Silent tbl find f p') ∧ E = adopted cur e

/-- C112, as stated: whatever the bytes are, the parser ends with the document of the text that they are in the encoding given, or, if
that was tentative, in the encoding chosen by the first declaration. -/
def C112_statement : Prop :=
  ∀ (tbl : List Nat → Bool) (find : Find), FindOk (fun _ => True) find → ∀ (bytes : List Nat) (conf : Confidence) (enc : Option Enc),
    (∀ b ∈ bytes, b < 256) → ∃ f0 u0, ∀ f u n, f0 ≤ f → u0 ≤ u → 2 ≤ n → ∃ E r text text0,
      parseBytes tbl find f u bytes n conf enc = .document E r ∧
      decodeText E u bytes = .stop (some text) ∧ parse tbl find f text = some r ∧
      decodeText (enc.getD .UTF_8) u bytes = .stop (some text0) ∧
      if conf = .tentative then Chosen tbl find f text0 (enc.getD .UTF_8) E else E = enc.getD .UTF_8

theorem first_some {l : List (List (List Nat × List Nat))} {e : Enc} (h : firstOf l = some (some e)) :
    ∃ pre as post, l = pre ++ as :: post ∧ declared as = some (some e) ∧ ∀ b ∈ pre, declared b = some none := by
  induction l with
  | nil => cases h
  | cons a l ih =>
    rw [firstOf] at h
    cases hd : declared a with
    | none => rw [hd] at h; cases h
    | some o =>
      rw [hd] at h
      cases o with
      | some e' => cases h; exact ⟨[], a, l, rfl, hd, by simp⟩
      | none =>
        obtain ⟨pre, as, post, h1, h2, h3⟩ := ih h
        exact ⟨a :: pre, as, post, by rw [h1]; rfl, h2, by
          intro b hb
          rcases List.mem_cons.1 hb with rfl | hb
          · exact hd
          · exact h3 b hb⟩

theorem first_none {l : List (List (List Nat × List Nat))} (h : firstOf l = some none) : ∀ b ∈ l, declared b = some none := by
  induction l with
  | nil => simp
  | cons a l ih =>
    rw [firstOf] at h
    cases hd : declared a with
    | none => rw [hd] at h; cases h
    | some o =>
      rw [hd] at h
      cases o with
      | some e' => cases h
      | none =>
        intro b hb
        rcases List.mem_cons.1 hb with rfl | hb
        · exact hd
        · exact ih h b hb

variable {tbl : List Nat → Bool} {find : Find} {f u : Nat}

theorem says_of {p : List Nat} {e : Enc} (h : said tbl find f p = some (some e)) : Says tbl find f p e := by
  unfold said at h
  cases hp : parse tbl find f p with
  | none => rw [hp] at h; cases h
  | some r =>
    rw [hp] at h
    cases r with
    | error e' => cases h
    | ok s =>
      obtain ⟨pre, as, post, h1, h2, h3⟩ := first_some h
      exact ⟨s, hp, pre, as, post, h1, h2, h3⟩

theorem silent_of {p : List Nat} (h : said tbl find f p = some none) : Silent tbl find f p := by
  intro s hs
  unfold said at h
  rw [hs] at h
  exact first_none h

theorem change_eq (cur e : Enc) : change cur e = if adopted cur e = cur then none else some (adopted cur e) := by
  unfold change adopted
  by_cases h1 : cur = .UTF_16BE ∨ cur = .UTF_16LE
  · rw [if_pos h1, if_pos h1, if_pos rfl]
  · rw [if_neg h1, if_neg h1]
    by_cases h2 : e = .UTF_16BE ∨ e = .UTF_16LE
    · simp only [if_pos h2, reduceCtorEq, if_false]
    · simp only [if_neg h2]

theorem adopted_some {cur e e' : Enc} (h : change cur e = some e') : e' = adopted cur e := by
  rw [change_eq] at h
  split at h
  · cases h
  · exact (Option.some.inj h).symm

theorem adopted_none {cur e : Enc} (h : change cur e = none) : cur = adopted cur e := by
  rw [change_eq] at h
  split at h
  · rename_i h1; exact h1.symm
  · cases h

theorem silent_prefix {p : List Nat} (h : ∀ q', q' ≠ [] → q' <+: p → q' ≠ p → said tbl find f ([] ++ q') = some none) :
    ∀ q, q <+: p → q ≠ p → Silent tbl find f q := by
  intro q h1 h2
  by_cases hq : q = []
  · subst hq; exact silent_of (said_nil tbl find f)
  · exact silent_of (h q hq h1 h2)

/-- C112, partial: if there is a document, it is that one. Missing: bytes for which there is none (`C112_thrown`, `C112_ends`). -/
theorem C112_partial {bytes : List Nat} {n : Nat} {conf : Confidence} {enc : Option Enc} {E : Enc} {r : R S}
    (h : parseBytes tbl find f u bytes n conf enc = .document E r) :
    ∃ text text0, decodeText E u bytes = .stop (some text) ∧ parse tbl find f text = some r ∧
      decodeText (enc.getD .UTF_8) u bytes = .stop (some text0) ∧
      if conf = .tentative then Chosen tbl find f text0 (enc.getD .UTF_8) E else E = enc.getD .UTF_8 := by
  -- a pass that does not change the encoding
  have sure : ∀ (n : Nat) (conf : Confidence) (enc : Option Enc), conf ≠ .tentative →
      parseBytes tbl find f u bytes n conf enc = .document E r →
      ∃ text, decodeText E u bytes = .stop (some text) ∧ parse tbl find f text = some r ∧ E = enc.getD .UTF_8 := by
    intro n conf enc hc h
    cases n with
    | zero => cases h
    | succ n =>
      rw [parseBytes] at h
      cases hd : decodeText (enc.getD .UTF_8) u bytes with
      | ub => rw [hd] at h; cases h
      | more => rw [hd] at h; cases h
      | stop o =>
        rw [hd] at h
        cases o with
        | none => cases h
        | some text =>
          simp only [pass_sure hc] at h
          cases hf : feed (sink tbl) find f false text (Model.HtmlTok.init (.ok init)) with
          | none => rw [hf] at h; cases h
          | some x =>
            rw [hf] at h
            simp only [Outcome.document.injEq] at h
            obtain ⟨rfl, rfl⟩ := h
            exact ⟨text, hd, by unfold parse; rw [hf]; rfl, rfl⟩
  by_cases hc : conf = .tentative
  · subst hc
    cases n with
    | zero => cases h
    | succ n =>
      rw [parseBytes] at h
      cases hd : decodeText (enc.getD .UTF_8) u bytes with
      | ub => rw [hd] at h; cases h
      | more => rw [hd] at h; cases h
      | stop o =>
        rw [hd] at h
        cases o with
        | none => cases h
        | some text =>
          simp only at h
          have key := pass_from (tbl := tbl) (find := find) (f := f) (cur := enc.getD .UTF_8) text [] false
            (Model.HtmlTok.init (.ok init)) rfl
          revert key h
          cases pass tbl find f (enc.getD .UTF_8) .tentative false text (Model.HtmlTok.init (.ok init)) with
          | endless => intro h; cases h
          | undefined => intro h; cases h
          | done r' =>
            intro h
            simp only [Outcome.document.injEq] at h
            obtain ⟨rfl, rfl⟩ := h
            rintro ⟨h1, h2⟩
            refine ⟨text, text, hd, h1, rfl, ?_⟩
            rw [if_pos rfl]
            rcases h2 with h2 | ⟨q, e, g1, g2, g3, g4⟩
            · refine .inl ⟨fun p hp => ?_, rfl⟩
              by_cases hq : p = []
              · subst hq; exact silent_of (said_nil tbl find f)
              · exact silent_of (h2 p hq hp)
            · exact .inr ⟨q, e, g1, says_of g2, silent_prefix g4, adopted_none g3⟩
          | change e' =>
            intro h
            simp only at h
            rintro ⟨q, e, g1, g2, g3, g4⟩
            obtain ⟨text', k1, k2, k3⟩ := sure n .certain (some e') (by decide) h
            refine ⟨text', text, k1, k2, rfl, ?_⟩
            rw [if_pos rfl]
            exact .inr ⟨q, e, g1, says_of g2, silent_prefix g4, k3.trans (adopted_some g3)⟩
  · obtain ⟨text, h1, h2, h3⟩ := sure n conf enc hc h
    exact ⟨text, text, h1, h2, by rw [← h3]; exact h1, by rw [if_neg hc]; exact h3⟩

/-- The loop over the code points does not depend on the bound of the tokenizer, and ends. -/
theorem pass_bound {P : Nat → Prop} (hF : FindOk P find) (h10 : P 10) (cur : Enc) (l : List Nat) :
    ∀ (p : List Nat) (conf : Confidence) (cr : Bool) (m : M (R S)), (∀ c ∈ p ++ l, P c) → ∀ f', 24 * (p ++ l).length + 39 ≤ f →
      24 * (p ++ l).length + 39 ≤ f' → feed (sink tbl) find f false p (Model.HtmlTok.init (.ok init)) = some (cr, m) →
      pass tbl find f cur conf cr l m = pass tbl find f' cur conf cr l m ∧ pass tbl find f cur conf cr l m ≠ .endless := by
  induction l with
  | nil => intro p conf cr m _ f' _ _ _; exact ⟨rfl, by simp [pass]⟩
  | cons c l ih =>
    intro p conf cr m hP f' hf hf' h
    obtain ⟨x, hx⟩ := Verif.Proof.HtmlTree.feed_total P (sink tbl) (Verif.Proof.HtmlTree.switch_sink tbl) find hF h10 (.ok init)
      (p ++ [c]) (fun d hd => hP d (by simp at hd ⊢; tauto))
    obtain ⟨y, hy⟩ := Verif.Proof.HtmlTree.feed_total P (sink tbl) (Verif.Proof.HtmlTree.switch_sink tbl) find hF h10 (.ok init)
      p (fun d hd => hP d (by simp at hd ⊢; tauto))
    have hlen : 24 * (p ++ [c]).length + 39 ≤ 24 * (p ++ c :: l).length + 39 := by simp
    have hlen' : 24 * p.length + 39 ≤ 24 * (p ++ c :: l).length + 39 := by simp
    have e1 := hx f (by omega)
    have e2 := hx f' (by omega)
    rw [feed_append] at e1 e2
    rw [hy f (by omega)] at h
    rw [hy f (by omega), h, Option.bind_some] at e1
    rw [hy f' (by omega), h, Option.bind_some] at e2
    have hfull := hx f (by omega)
    rw [pass, pass, e1, e2]
    simp only
    have key : ∀ conf, pass tbl find f cur conf x.1 l x.2 = pass tbl find f' cur conf x.1 l x.2 ∧
        pass tbl find f cur conf x.1 l x.2 ≠ .endless := fun conf =>
      ih (p ++ [c]) conf x.1 x.2 (by simpa using hP) f' (by simpa using hf) (by simpa using hf') hfull
    split
    · cases firstOf (metas x.2.sink) with
      | none => exact ⟨rfl, by simp⟩
      | some o =>
        cases o with
        | none => exact key _
        | some e =>
          cases hch : change cur e with
          | some e' => exact ⟨by simp [hch], by simp [hch]⟩
          | none => simpa [hch] using key .certain
    · exact key _

/-- The decoder ends. -/
theorem decode_ends (e : Enc) (bytes : List Nat) : ∃ n x, x ≠ .more ∧ ∀ u, n ≤ u → decodeText e u bytes = x := by
  unfold decodeText
  cases hc : construct (some e) false false with
  | none => exact ⟨0, .stop none, by simp, fun _ _ => rfl⟩
  | some o =>
    obtain ⟨n, x, h1, h2⟩ := Verif.Props.TextDecoder.C36 hc ⟨(decoderOf o.name).init, [], false, false⟩
      ⟨(decoderOf o.name).init, [], false, false⟩ rfl rfl [] bytes
    exact ⟨n, x, h1, fun u hu => (h2 u hu).1⟩

/-- C112: parsing bytes ends, with the same outcome for all bounds that are large enough; two passes are always enough. -/
theorem C112_ends (tbl : List Nat → Bool) (P : Nat → Prop) (find : Find) (hF : FindOk P find) (h10 : P 10) (bytes : List Nat)
    (hP : ∀ e u text, decodeText e u bytes = .stop (some text) → ∀ c ∈ text, P c) (conf : Confidence) (enc : Option Enc) :
    ∃ f0 u0 out, out ≠ .endless ∧ ∀ f u n, f0 ≤ f → u0 ≤ u → 2 ≤ n → parseBytes tbl find f u bytes n conf enc = out := by
  -- one pass
  have one : ∀ (conf : Confidence) (enc : Option Enc), ∃ f0 u0, ∃ x : Outcome ⊕ Enc, x ≠ .inl .endless ∧
      (conf ≠ .tentative → ∀ e, x ≠ .inr e) ∧ ∀ f u n, f0 ≤ f → u0 ≤ u →
        parseBytes tbl find f u bytes (n + 1) conf enc = match x with
          | .inl out => out
          | .inr e => parseBytes tbl find f u bytes n .certain (some e) := by
    intro conf enc
    obtain ⟨u0, x, hx, hu⟩ := decode_ends (enc.getD .UTF_8) bytes
    cases x with
    | more => exact absurd rfl hx
    | ub => exact ⟨0, u0, .inl .undefined, by simp, by simp, fun f u n _ h => by rw [parseBytes, hu u h]⟩
    | stop o =>
      cases o with
      | none => exact ⟨0, u0, .inl .thrown, by simp, by simp, fun f u n _ h => by rw [parseBytes, hu u h]⟩
      | some text =>
        have hb := pass_bound (tbl := tbl) (f := 24 * text.length + 39) hF h10 (enc.getD .UTF_8) text [] conf false
          (Model.HtmlTok.init (.ok init)) (fun c hc => hP _ u0 text (hu u0 (Nat.le_refl _)) c (by simpa using hc))
        have hne := (hb _ (by simp) (Nat.le_refl _) rfl).2
        have hsure := fun (h : conf ≠ .tentative) => pass_sure (tbl := tbl) (find := find) (f := 24 * text.length + 39)
          (cur := enc.getD .UTF_8) h text false (Model.HtmlTok.init (.ok init))
        have heq : ∀ f, 24 * text.length + 39 ≤ f → pass tbl find f (enc.getD .UTF_8) conf false text (Model.HtmlTok.init (.ok init)) =
            pass tbl find (24 * text.length + 39) (enc.getD .UTF_8) conf false text (Model.HtmlTok.init (.ok init)) :=
          fun f hf => ((hb f (by simp) (by simpa using hf) rfl).1).symm
        cases hp : pass tbl find (24 * text.length + 39) (enc.getD .UTF_8) conf false text (Model.HtmlTok.init (.ok init)) with
        | endless => exact absurd hp hne
        | undefined =>
          exact ⟨24 * text.length + 39, u0, .inl .undefined, by simp, by simp, fun f u n h1 h2 => by
            rw [parseBytes, hu u h2]; simp only [heq f h1, hp]⟩
        | done r =>
          exact ⟨24 * text.length + 39, u0, .inl (.document (enc.getD .UTF_8) r), by simp, by simp, fun f u n h1 h2 => by
            rw [parseBytes, hu u h2]; simp only [heq f h1, hp]⟩
        | change e =>
          refine ⟨24 * text.length + 39, u0, .inr e, by simp, fun hc => ?_, fun f u n h1 h2 => by
            rw [parseBytes, hu u h2]; simp only [heq f h1, hp]⟩
          rw [hsure hc] at hp
          split at hp <;> cases hp
  obtain ⟨f0, u0, x, h1, -, h3⟩ := one conf enc
  cases x with
  | inl out =>
    refine ⟨f0, u0, out, fun h => h1 (by rw [h]), fun f u n hf hu hn => ?_⟩
    obtain ⟨n, rfl⟩ : ∃ k, n = k + 1 := ⟨n - 1, by omega⟩
    exact h3 f u n hf hu
  | inr e =>
    obtain ⟨f1, u1, y, g1, g2, g3⟩ := one .certain (some e)
    cases y with
    | inr e' => exact absurd rfl (g2 (by decide) e')
    | inl out =>
      refine ⟨f0 + f1, u0 + u1, out, fun h => g1 (by rw [h]), fun f u n hf hu hn => ?_⟩
      obtain ⟨n, rfl⟩ : ∃ k, n = k + 2 := ⟨n - 2, by omega⟩
      rw [h3 f u (n + 1) (by omega) (by omega)]
      exact g3 f u n (by omega) (by omega)

example : FindOk (fun _ => True) noNames := fun _ _ => ⟨none, rfl, by simp⟩

/-- C112 for UTF-8: parsing the bytes of a text, known to be UTF-8, gives what parsing the text gives, without its byte order mark. -/
theorem C112_utf8 (tbl : List Nat → Bool) (P : Nat → Prop) (find : Find) (hF : FindOk P find) (h10 : P 10) (s : List Nat)
    (hs : ∀ c ∈ s, IsScalar c) (hP : ∀ c ∈ s, P c) (conf : Confidence) (hc : conf ≠ .tentative) (enc : Option Enc)
    (he : enc = none ∨ enc = some .UTF_8) :
    ∃ r f0 u0, ∀ f u n, f0 ≤ f → u0 ≤ u → parse tbl find f (withoutMark false s) = some r ∧
      parseBytes tbl find f u (utf8s s) (n + 1) conf enc = .document .UTF_8 r := by
  have he : enc.getD .UTF_8 = .UTF_8 := by rcases he with rfl | rfl <;> rfl
  have hm : ∀ c ∈ withoutMark false s, P c := by
    intro c h
    unfold withoutMark at h
    split at h
    · exact hP c (List.mem_of_mem_tail h)
    · exact hP c h
  obtain ⟨x, hx⟩ := Verif.Proof.HtmlTree.feed_total P (sink tbl) (Verif.Proof.HtmlTree.switch_sink tbl) find hF h10 (.ok init) _ hm
  obtain ⟨u0, hu⟩ := Verif.Props.TextDecoder.C71_utf8 ⟨.UTF_8, false, false⟩ rfl ⟨(decoderOf .UTF_8).init, [], false, false⟩ rfl []
    (utf8s s) (by
      intro b hb
      exact Verif.Proof.Utf8Report.utf8s_byte hs b (by simpa using hb))
  refine ⟨x.2.sink, _, u0, fun f u n hf hu' => ⟨by unfold parse; rw [hx f hf]; rfl, ?_⟩⟩
  have hd : decodeText .UTF_8 u (utf8s s) = .stop (some (withoutMark false s)) := (hu u hu').2.1 s hs rfl
  rw [parseBytes, he, hd]
  simp only [pass_sure hc, hx f hf]

/-- What the outcome is, for the examples. -/
def isThrown : Outcome → Bool
  | .thrown => true
  | _ => false

/-- The encoding and the number of nodes of the outcome, for the examples. -/
def isDocument (E : Enc) (n : Nat) : Outcome → Bool
  | .document E' (.ok s) => decide (E' = E ∧ s.dom.length = n)
  | _ => false

/-- Read as UTF-8 first, then as windows-1251, in which the two bytes are two characters. -/
example : isDocument .windows_1251 7
    (parseBytes (fun _ => false) noNames 300 100 (codes "<meta charset=cp1251>" ++ [0xC3, 0x84] ++ codes "<p>") 2 .tentative none) = true := by
  decide +kernel

/-- C112 fails: a label of the encoding `replacement` makes the parser throw. -/
theorem C112_thrown : isThrown
    (parseBytes (fun _ => false) noNames 60 100 (codes "<meta charset=csiso2022kr>") 2 .tentative none) = true := by decide +kernel

/-- In general: the encoding `replacement` is never decoded. -/
theorem C112_replacement (bytes : List Nat) (n : Nat) (conf : Confidence) :
    parseBytes tbl find f u bytes (n + 1) conf (some .replacement) = .thrown := rfl

theorem loop_more {σ : Type} {run : Run σ} {mode : Model.Coder.Mode} {stream : Bool} {x : Ends (Option (σ × Queue × Queue))} (hx : x ≠ .more) :
    ∀ (u : Nat) (st : σ) (q out : Queue), Model.TextDecoder.loop run mode stream u st q out = x → ∀ k,
      Model.TextDecoder.loop run mode stream (u + k) st q out = x := by
  intro u
  induction u with
  | zero => intro st q out h; exact absurd h.symm hx
  | succ u ih =>
    intro st q out h k
    rw [show u + 1 + k = (u + k) + 1 by omega]
    rw [Model.TextDecoder.loop] at h ⊢
    split at h
    · rename_i h1; rw [if_pos h1]; exact h
    · rename_i h1
      rw [if_neg h1]
      split at h
      · exact h
      · exact h
      · exact h
      · exact ih _ _ _ h k

/-- The bytes of `C112_thrown`. -/
def korean : List Nat := codes "<meta charset=csiso2022kr>"

theorem korean_text (k : Nat) : decodeText .UTF_8 (100 + k) korean = .stop (some korean) := by
  have h : decodeText .UTF_8 100 korean = .stop (some korean) := by decide +kernel
  unfold decodeText at h ⊢
  change decodeChunks ⟨.UTF_8, false, false⟩ 100 _ [] korean = _ at h
  change decodeChunks ⟨.UTF_8, false, false⟩ (100 + k) _ [] korean = _
  rw [decodeChunks] at h ⊢
  unfold Model.TextDecoder.decode at h ⊢
  simp only [if_true] at h ⊢
  rw [loop_more (x := _) ?_ 100 _ _ _ rfl k]
  · exact h
  · intro hm
    rw [hm] at h
    cases h

theorem korean_length : korean.length = 26 := by decide

/-- A change of the encoding, for the evaluation. -/
def isChange (e : Enc) : Pass → Bool
  | .change e' => decide (e' = e)
  | _ => false

theorem C112_statement_false : ¬ C112_statement := by
  intro h
  obtain ⟨f0, u0, h⟩ := h (fun _ => false) noNames (fun _ _ => ⟨none, rfl, by simp⟩) korean .tentative none (by decide)
  obtain ⟨E, r, text, text0, h1, -⟩ := h (f0 + 663) (100 + u0) 2 (by omega) (by omega) (by omega)
  have hc : isChange .replacement
      (pass (fun _ => false) noNames 663 .UTF_8 .tentative false korean (Model.HtmlTok.init (.ok init))) = true := by decide +kernel
  have hb := (pass_bound (tbl := fun _ => false) (find := noNames) (f := 663) (P := fun _ => True)
    (fun _ _ => ⟨none, rfl, by simp⟩) trivial .UTF_8 korean [] .tentative false (Model.HtmlTok.init (.ok init)) (fun _ _ => trivial)
    (f0 + 663) (by decide) (by rw [List.nil_append, korean_length]; omega) rfl).1
  rw [hb] at hc
  rw [parseBytes, Option.getD_none, korean_text] at h1
  simp only at h1
  cases hp : pass (fun _ => false) noNames (f0 + 663) .UTF_8 .tentative false korean (Model.HtmlTok.init (.ok init)) with
  | change e =>
    rw [hp] at hc h1
    have : e = .replacement := of_decide_eq_true hc
    subst this
    cases h1
  | done _ => rw [hp] at hc; cases hc
  | undefined => rw [hp] at hc; cases hc
  | endless => rw [hp] at hc; cases hc

end Verif.Props.HtmlBytes
