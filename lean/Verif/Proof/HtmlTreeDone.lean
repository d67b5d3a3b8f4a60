import Verif.Proof.HtmlTreeSafeText
import Verif.Proof.HtmlTreeView
/- The document at the end of the text. -/
namespace Verif.Proof.HtmlTree
open Verif.Model.HtmlTree Verif.Spec.HtmlTokBridge Verif.Proof.HtmlTokKeep Verif.Proof.HtmlTok Verif.Proof.HtmlTokGhost Verif.Proof.HtmlTokEof
open Verif.Model.HtmlTok (Sink Find feed tokenize)
open Verif.Spec.HtmlWatch
open Verif.Spec.Infra (normNL)
variable {tbl : List Nat → Bool} {Q : Model.HtmlTok.Tok → Prop} {I J : S → Prop} {E : Fail → Prop}

/-- An invariant `I` that tokens of the kind `Q` keep, except for that of the end, which makes it `J`. -/
structure Ends (tbl : List Nat → Bool) (Q : Model.HtmlTok.Tok → Prop) (I J : S → Prop) (E : Fail → Prop) : Prop where
  init : I init
  emit : ∀ s t, Q t → I s → Inv (fun s' => (t = .eof → J s') ∧ (t ≠ .eof → I s')) E (emit tbl (convert s t) s)

/-- What holds along with the record. -/
def AlongTo (Q : Model.HtmlTok.Tok → Prop) (I J : S → Prop) (E : Fail → Prop) (s : R S × List (R S × Model.HtmlTok.Tok)) : Prop :=
  (∀ x ∈ s.2, Q x.2) → ((∀ x ∈ s.2, x.2 ≠ .eof) → Inv I E s.1) ∧
    ((∃ r a, s.2 = r ++ [a] ∧ (∀ x ∈ r, x.2 ≠ .eof) ∧ a.2 = .eof) → Inv J E s.1)

theorem alongTo_kept (h : Ends tbl Q I J E) : HtmlTokKeep.Kept (AlongTo Q I J E) (watch (sink tbl)) := by
  rintro ⟨r, rec⟩ t hs hq
  change ∀ x ∈ rec ++ [(r, t)], Q x.2 at hq
  have h0 : (∀ x ∈ rec, x.2 ≠ .eof) → Inv (fun s' => (t = .eof → J s') ∧ (t ≠ .eof → I s')) E ((sink tbl).emit r t) := by
    intro he
    have := (hs fun x hx => hq x (by simp [hx])).1 he
    cases r with
    | error e => exact this
    | ok s => exact h.emit s t (hq (.ok s, t) (by simp)) this
  refine ⟨fun he => ?_, fun ⟨r', a, e, he, ha⟩ => ?_⟩
  · change ∀ x ∈ rec ++ [(r, t)], x.2 ≠ .eof at he
    have h1 := h0 fun x hx => he x (by simp [hx])
    have h2 : t ≠ .eof := he (r, t) (by simp)
    change Inv I E ((sink tbl).emit r t)
    generalize (sink tbl).emit r t = z at h1
    cases z with
    | error e => exact h1
    | ok s => exact h1.2 h2
  · change rec ++ [(r, t)] = r' ++ [a] at e
    obtain ⟨e', e''⟩ := List.append_inj' e rfl
    subst e'
    cases List.cons.inj e'' |>.1
    have h1 := h0 he
    change Inv J E ((sink tbl).emit r t)
    generalize (sink tbl).emit r t = z at h1
    cases z with
    | error e => exact h1
    | ok s => exact h1.1 ha

theorem parseEof_ends (h : Ends tbl Q I J E) (P : Nat → Prop) (find : Find) (hF : FindOk P find) (h10 : P 10) (l : List Nat)
    (hl : ∀ c ∈ l, P c) (hcr : l.getLast? ≠ some 13) :
    ∃ r toks, (∀ f, 24 * l.length + 39 ≤ f → parseEof tbl find f l = some r ∧ tokensEof tbl find f l = some toks) ∧
      ((∀ t ∈ toks, Q t) → .eof ∈ toks → Inv J E r) := by
  obtain ⟨m, a1, a2⟩ := tokenize_ok (Chars P) (watch (sink tbl)) (switch_watch tbl) find (chars_text P _ find hF) End
    (end_rel P (sink tbl) find) (.ok init, []) l (fun _ => chars_late P) (chars_start h10 _ hl)
  have a3 : End [] m := (a2 hcr (Or.inl fun x hx => by cases hx)).1
  refine ⟨m.sink.1, m.sink.2.map (·.2), fun f hf => ⟨?_, ?_⟩, fun hQ he => ?_⟩
  · unfold parseEof
    rw [tokenize_mp, a1 f hf]
    rfl
  · unfold tokensEof
    rw [a1 f hf]
    rfl
  · have := ko_tokenize (alongTo_kept h) find _ (.ok init, []) l (fun _ => ⟨fun _ => h.init, fun ⟨r, a, e, _⟩ => by simp at e⟩) _ (a1 _ (Nat.le_refl _))
    have h1 := this fun x hx => hQ _ (List.mem_map_of_mem hx)
    obtain ⟨x, hx, hxe⟩ := List.mem_map.mp he
    rcases a3 with a | ⟨-, r, a, b1, b2⟩
    · exact absurd hxe (a x hx)
    · refine h1.2 ⟨r, a, b1, b2, ?_⟩
      rw [b1] at hx
      rcases List.mem_append.mp hx with hx | hx
      · exact absurd hxe (b2 x hx)
      · rw [← List.mem_singleton.mp hx]
        exact hxe

namespace Safe

theorem safe_ends (tbl : List Nat → Bool) (q : Prop) : Ends tbl (Mild q) (Inv q) (fun s => Done s.dom) (Left q) where
  init := init_inv
  emit s t ht h := by
    have := emit_ok tbl (convert s t) s (fine_of ht) h
    unfold Good at this
    generalize hz : emit tbl (convert s t) s = z at this
    cases z with
    | error e => exact this
    | ok s' => exact ⟨fun he => by subst he; exact this, fun he => After.of (eof_of he) ▸ this⟩

end Safe

namespace Forest
open Verif.Spec.HtmlTree
open Verif.Spec.HtmlSerial (htmlNs)
open Verif.Spec.HtmlAtom (codes)
variable {d : Model.HtmlTree.Dom}

/-- What the elements are called. -/
def nameOf (v : Option (Ns × Tag)) : Option (List Nat) := v.bind fun v => if nsName v.1 = htmlNs then some v.2.name else none

theorem names_view (f : Nat) (l : List Nat) :
    elementNames (l.map (view d f)) = ((l.filter fun x => (tagAt d x).isSome).map fun x => nameOf (tagAt d x)) := by
  induction l with
  | nil => rfl
  | cons x l ih =>
    unfold elementNames at ih ⊢
    rw [List.map_cons, List.filterMap_cons, ih, view_data, List.filter_cons]
    unfold tagAt
    cases hk : kindOf d x with
    | none => simp
    | some k => cases k <;> simp [data, nameOf, hk]

theorem shape_of {l : List K} (w : Wf d) (h : Has d l) : ∃ a attrs ks b, (document d).kids = a ++ .mk (.element htmlNs [] (codes "html") attrs) ks :: b ∧
    elementNames a = [] ∧ elementNames b = [] ∧ elementNames ks = l.map fun k => some (Tag.k k).name := by
  obtain ⟨r, h1, h2, h3⟩ := h
  have h1' : (kidsOf d 0).filter (fun x => (tagAt d x).isSome) = [r] := h1
  obtain ⟨a, b, e1, e2, e3, e4⟩ := List.filter_eq_cons_iff.mp h1'
  obtain ⟨attrs, hk⟩ : ∃ attrs, kindOf d r = some (.elem .html (.k .html) attrs) := by
    unfold tagAt at h2
    split at h2
    · next hk => cases h2; exact ⟨_, hk⟩
    · cases h2
  have hr : r < d.length := lt_of_kind hk
  have hr0 : r ≠ 0 := by
    rintro rfl
    unfold tagAt at h2
    rw [w.doc] at h2
    cases h2
  obtain ⟨n, hn⟩ : ∃ n, d.length = n + 2 := ⟨d.length - 2, by omega⟩
  have e2' : a.filter (fun x => (tagAt d x).isSome) = [] := List.filter_eq_nil_iff.mpr e2
  refine ⟨a.map (view d (n + 1)), attrs.map attr, (kidsOf d r).map (view d n), b.map (view d (n + 1)), ?_, ?_, ?_, ?_⟩
  · unfold document
    rw [hn, view]
    show (kidsOf d 0).map _ = _
    rw [e1, List.map_append, List.map_cons]
    congr 2
    rw [view, hk]
    rfl
  · rw [names_view, e2']; rfl
  · rw [names_view, e4]; rfl
  · rw [names_view]
    have := congrArg (List.map nameOf) h3
    rw [List.map_map, List.map_map] at this
    refine Eq.trans this (List.map_congr_left fun k _ => ?_)
    rfl

end Forest

end Verif.Proof.HtmlTree
