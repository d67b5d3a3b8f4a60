import Verif.Proof.HtmlTokEof
import Verif.Proof.HtmlTreeText
/- What tokens of a kind keep, a text keeps all of whose tokens are of that kind. -/
namespace Verif.Proof.HtmlTree
open Verif.Model.HtmlTree Verif.Spec.HtmlTokBridge Verif.Proof.HtmlTokKeep Verif.Proof.HtmlTok Verif.Proof.HtmlTokGhost Verif.Proof.HtmlTokEof
open Verif.Model.HtmlTok (Sink Find feed tokenize)
open Verif.Spec.HtmlWatch
open Verif.Spec.Infra (normNL)
variable {tbl : List Nat → Bool}

/-- An invariant `I` that tokens of the kind `Q` keep, except for that of the end, behind which `J` holds. -/
structure Keeps (tbl : List Nat → Bool) (Q : Model.HtmlTok.Tok → Prop) (I J : S → Prop) (E : Fail → Prop) : Prop where
  init : I init
  weak : ∀ s, I s → J s
  emit : ∀ s t, Q t → I s → Inv (fun s' => J s' ∧ (t ≠ .eof → I s')) E (emit tbl (convert s t) s)

variable {Q : Model.HtmlTok.Tok → Prop} {I J : S → Prop} {E : Fail → Prop}

/-- What holds along with the record. -/
def Along (Q : Model.HtmlTok.Tok → Prop) (I J : S → Prop) (E : Fail → Prop) (s : R S × List (R S × Model.HtmlTok.Tok)) : Prop :=
  (∀ x ∈ s.2, Q x.2) → ((∀ x ∈ s.2, x.2 ≠ .eof) → Inv I E s.1) ∧ ((∃ r a, s.2 = r ++ [a] ∧ ∀ x ∈ r, x.2 ≠ .eof) → Inv J E s.1)

theorem along_kept (h : Keeps tbl Q I J E) : HtmlTokKeep.Kept (Along Q I J E) (watch (sink tbl)) := by
  rintro ⟨r, rec⟩ t hs hq
  change ∀ x ∈ rec ++ [(r, t)], Q x.2 at hq
  have h0 : (∀ x ∈ rec, x.2 ≠ .eof) → Inv (fun s' => J s' ∧ (t ≠ .eof → I s')) E ((sink tbl).emit r t) := by
    intro he
    have := (hs fun x hx => hq x (by simp [hx])).1 he
    cases r with
    | error e => exact this
    | ok s => exact h.emit s t (hq (.ok s, t) (by simp)) this
  refine ⟨fun he => ?_, fun ⟨r', a, e, he⟩ => ?_⟩
  · change ∀ x ∈ rec ++ [(r, t)], x.2 ≠ .eof at he
    have h1 := h0 fun x hx => he x (by simp [hx])
    have h2 : t ≠ .eof := he (r, t) (by simp)
    change Inv I E ((sink tbl).emit r t)
    generalize (sink tbl).emit r t = z at h1
    cases z with
    | error e => exact h1
    | ok s => exact h1.2 h2
  · change rec ++ [(r, t)] = r' ++ [a] at e
    have e' := (List.append_inj' e rfl).1
    subst e'
    have h1 := h0 he
    change Inv J E ((sink tbl).emit r t)
    generalize (sink tbl).emit r t = z at h1
    cases z with
    | error e => exact h1
    | ok s => exact h1.1

theorem switch_watch (tbl : List Nat → Bool) : SwitchOk (watch (sink tbl)) := fun r st h => switch_sink tbl r.1 st h

theorem along_init (h : Keeps tbl Q I J E) : Along Q I J E (.ok init, []) :=
  fun _ => ⟨fun _ => h.init, fun ⟨r, a, e, _⟩ => by simp at e⟩

theorem parse_keeps (h : Keeps tbl Q I J E) (P : Nat → Prop) (find : Find) (hF : FindOk P find) (h10 : P 10) (l : List Nat) (hl : ∀ c ∈ l, P c) :
    ∃ r toks, (∀ f, 24 * l.length + 39 ≤ f → parse tbl find f l = some r ∧ tokens tbl find f l = some toks) ∧
      ((∀ t ∈ toks, Q t) → Inv I E r) := by
  have hcm : coming false l = normNL l := Verif.Props.HtmlInput.C53_newlines l
  have hq : Quiet (Chars P (coming false l)) (Model.HtmlTok.init (σ := R S × List (R S × Model.HtmlTok.Tok)) (.ok init, [])) := by
    refine ⟨⟨?_, ?_, ?_, ?_, ?_⟩, rfl, rfl, hcm ▸ chars_start h10 _ hl⟩ <;>
      simp [Model.HtmlTok.init, refSt, Need, freeSt, attrSt, endSt]
  obtain ⟨cr, m, a1, a2, -, a4, -⟩ := feed_ok (Chars P) (watch (sink tbl)) (switch_watch tbl) find (chars_text P _ find hF) End
    (end_rel P (sink tbl) find) l false _ hq l.length (by simp [Model.HtmlTok.init])
  have a5 : End (coming cr []) m := a4 (Or.inl fun x hx => by cases hx)
  have a6 : Un m.sink := by
    rcases a5 with a | ⟨a, -⟩
    · exact a
    · rw [a2.fresh] at a; cases a
  refine ⟨m.sink.1, m.sink.2.map (·.2), fun f hf => ⟨?_, ?_⟩, fun hQ => ?_⟩
  · unfold parse
    have := feed_mp (S := sink tbl) find f l false (m := Model.HtmlTok.init (.ok init, []))
    change feed (sink tbl) find f false l (Model.HtmlTok.init (.ok init)) = _ at this
    rw [this, a1 f hf]
    rfl
  · unfold tokens
    rw [a1 f hf]
    rfl
  · have := k_feed (along_kept h) find _ l false (along_init h) _ (a1 _ (Nat.le_refl _))
    exact (this fun x hx => hQ _ (List.mem_map_of_mem hx)).1 a6

theorem parseEof_keeps (h : Keeps tbl Q I J E) (P : Nat → Prop) (find : Find) (hF : FindOk P find) (h10 : P 10) (l : List Nat)
    (hl : ∀ c ∈ l, P c) (hcr : l.getLast? ≠ some 13) :
    ∃ r toks, (∀ f, 24 * l.length + 39 ≤ f → parseEof tbl find f l = some r ∧ tokensEof tbl find f l = some toks) ∧
      ((∀ t ∈ toks, Q t) → Inv J E r) := by
  obtain ⟨m, a1, a2⟩ := tokenize_ok (Chars P) (watch (sink tbl)) (switch_watch tbl) find (chars_text P _ find hF) End
    (end_rel P (sink tbl) find) (.ok init, []) l (fun _ => chars_late P) (chars_start h10 _ hl)
  have a3 : End [] m := (a2 hcr (Or.inl fun x hx => by cases hx)).1
  refine ⟨m.sink.1, m.sink.2.map (·.2), fun f hf => ⟨?_, ?_⟩, fun hQ => ?_⟩
  · unfold parseEof
    rw [tokenize_mp, a1 f hf]
    rfl
  · unfold tokensEof
    rw [a1 f hf]
    rfl
  · have := ko_tokenize (along_kept h) find _ (.ok init, []) l (along_init h) _ (a1 _ (Nat.le_refl _))
    have h1 := this fun x hx => hQ _ (List.mem_map_of_mem hx)
    rcases a3 with a | ⟨-, a⟩
    · have h2 := h1.1 a
      generalize m.sink.1 = z at h2
      cases z with
      | error e => exact h2
      | ok s => exact h.weak s h2
    · exact h1.2 a

end Verif.Proof.HtmlTree
