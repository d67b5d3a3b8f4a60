import Verif.Proof.HtmlTreeWatch
import Verif.Proof.HtmlTreeWalk2
import Verif.Spec.HtmlTree
/- What tokens of a kind keep, the announcement of the end included. -/
namespace Verif.Proof.HtmlTree
open Verif.Model.HtmlTree Verif.Spec.HtmlTokBridge Verif.Proof.HtmlTokKeep Verif.Proof.HtmlTok Verif.Proof.HtmlTokGhost Verif.Proof.HtmlTokEof
open Verif.Model.HtmlTok (Sink Find feed tokenize)
open Verif.Spec.HtmlWatch
open Verif.Spec.Infra (normNL)
open Verif.Proof.HtmlTree.Walk
variable {tbl : List Nat → Bool} {Q : Model.HtmlTok.Tok → Prop} {I : S → Prop}

/-- An invariant that tokens of the kind `Q` keep. -/
structure Holds (tbl : List Nat → Bool) (Q : Model.HtmlTok.Tok → Prop) (I : S → Prop) : Prop where
  init : I init
  emit : ∀ s t, Q t → I s → Ens I (emit tbl (convert s t) s)

/-- What holds along with the record. -/
def Beside (Q : Model.HtmlTok.Tok → Prop) (I : S → Prop) (s : R S × List (R S × Model.HtmlTok.Tok)) : Prop := (∀ x ∈ s.2, Q x.2) → Ens I s.1

theorem beside_kept (h : Holds tbl Q I) : HtmlTokKeep.Kept (Beside Q I) (watch (sink tbl)) := by
  rintro ⟨r, rec⟩ t hs hq
  change ∀ x ∈ rec ++ [(r, t)], Q x.2 at hq
  have h1 := hs fun x hx => hq x (by simp [hx])
  cases r with
  | error e => exact h1
  | ok s => exact h.emit s t (hq (.ok s, t) (by simp)) (h1 s rfl)

theorem parse_holds (h : Holds tbl Q I) (P : Nat → Prop) (find : Find) (hF : FindOk P find) (h10 : P 10) (l : List Nat) (hl : ∀ c ∈ l, P c) :
    ∃ r toks, (∀ f, 24 * l.length + 39 ≤ f → parse tbl find f l = some r ∧ tokens tbl find f l = some toks) ∧
      ((∀ t ∈ toks, Q t) → Ens I r) := by
  have hcm : coming false l = normNL l := Verif.Props.HtmlInput.C53_newlines l
  have hq : Quiet (Chars P (coming false l)) (Model.HtmlTok.init (σ := R S × List (R S × Model.HtmlTok.Tok)) (.ok init, [])) := by
    refine ⟨⟨?_, ?_, ?_, ?_, ?_⟩, rfl, rfl, hcm ▸ chars_start h10 _ hl⟩ <;>
      simp [Model.HtmlTok.init, refSt, Need, freeSt, attrSt, endSt]
  obtain ⟨cr, m, a1, -⟩ := feed_ok (Chars P) (watch (sink tbl)) (switch_watch tbl) find (chars_text P _ find hF) End
    (end_rel P (sink tbl) find) l false _ hq l.length (by simp [Model.HtmlTok.init])
  refine ⟨m.sink.1, m.sink.2.map (·.2), fun f hf => ⟨?_, ?_⟩, fun hQ => ?_⟩
  · unfold parse
    have := feed_mp (S := sink tbl) find f l false (m := Model.HtmlTok.init (.ok init, []))
    change feed (sink tbl) find f false l (Model.HtmlTok.init (.ok init)) = _ at this
    rw [this, a1 f hf]
    rfl
  · unfold tokens
    rw [a1 f hf]
    rfl
  · have := k_feed (beside_kept h) find _ l false (fun _ => Ens.ok h.init) _ (a1 _ (Nat.le_refl _))
    exact this fun x hx => hQ _ (List.mem_map_of_mem hx)

theorem parseEof_holds (h : Holds tbl Q I) (P : Nat → Prop) (find : Find) (hF : FindOk P find) (h10 : P 10) (l : List Nat)
    (hl : ∀ c ∈ l, P c) :
    ∃ r toks, (∀ f, 24 * l.length + 39 ≤ f → parseEof tbl find f l = some r ∧ tokensEof tbl find f l = some toks) ∧
      ((∀ t ∈ toks, Q t) → Ens I r) := by
  obtain ⟨m, a1, -⟩ := tokenize_ok (Chars P) (watch (sink tbl)) (switch_watch tbl) find (chars_text P _ find hF) End
    (end_rel P (sink tbl) find) (.ok init, []) l (fun _ => chars_late P) (chars_start h10 _ hl)
  refine ⟨m.sink.1, m.sink.2.map (·.2), fun f hf => ⟨?_, ?_⟩, fun hQ => ?_⟩
  · unfold parseEof
    rw [tokenize_mp, a1 f hf]
    rfl
  · unfold tokensEof
    rw [a1 f hf]
    rfl
  · have := ko_tokenize (beside_kept h) find _ (.ok init, []) l (fun _ => Ens.ok h.init) _ (a1 _ (Nat.le_refl _))
    exact this fun x hx => hQ _ (List.mem_map_of_mem hx)

open Verif.Spec.HtmlTree

mutual
theorem mem_nodes_view (d : Dom) : ∀ (f x : Nat), ∀ y ∈ nodes (view d f x), y = .other ∨ ∃ n ∈ d, y = data n.kind
  | 0, x, y, h => by
    simp only [view, nodes, nodesAll, List.mem_singleton] at h
    subst h
    unfold kindOf
    cases hd : d[x]? with
    | none => exact .inl rfl
    | some n => exact .inr ⟨n, List.mem_of_getElem? hd, rfl⟩
  | f + 1, x, y, h => by
    simp only [view, nodes, List.mem_cons] at h
    rcases h with h | h
    · subst h
      unfold kindOf
      cases hd : d[x]? with
      | none => exact .inl rfl
      | some n => exact .inr ⟨n, List.mem_of_getElem? hd, rfl⟩
    · exact mem_nodes_all d f _ y h
theorem mem_nodes_all (d : Dom) : ∀ (f : Nat) (l : List Nat), ∀ y ∈ nodesAll (l.map (view d f)), y = .other ∨ ∃ n ∈ d, y = data n.kind
  | f, [], y, h => by cases h
  | f, x :: l, y, h => by
    simp only [List.map_cons, nodesAll, List.mem_append] at h
    rcases h with h | h
    · exact mem_nodes_view d f x y h
    · exact mem_nodes_all d f l y h
end

end Verif.Proof.HtmlTree
