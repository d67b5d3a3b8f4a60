import Verif.Proof.CssNumeric
import Mathlib.Tactic.Tauto
namespace Verif.Proof.CssTok
open Verif.Model.Infra Verif.Model.Unicode Verif.Model.Coder Verif.Model.Percent Verif.Model.Host Verif.Model.CssTok
open Verif.Spec Verif.Spec.Infra Verif.Spec.Percent Verif.Spec.Host Verif.Spec.CssTok

/-! ### Whitespace -/

theorem ws_sound (s : List Nat) : ∃ w, s = w ++ s.dropWhile isWs ∧ (∀ c ∈ w, Ws c) ∧ ¬ Starts Ws (s.dropWhile isWs) := by
  refine ⟨s.takeWhile isWs, (List.takeWhile_append_dropWhile).symm, ?_, ?_⟩
  · intro c hc
    exact (ws_iff c).mp (List.all_eq_true.mp (List.all_takeWhile (p := isWs) (l := s)) c hc)
  · rintro ⟨c, r, h, hc⟩
    have := List.head?_dropWhile_not isWs s
    rw [h] at this
    simp only [List.head?_cons] at this
    rw [(ws_iff c).mpr hc] at this
    cases this

theorem ws_complete {w r : List Nat} (hw : ∀ c ∈ w, Ws c) (hr : ¬ Starts Ws r) : (w ++ r).dropWhile isWs = r := by
  rw [List.dropWhile_append_of_pos (fun c hc => (ws_iff c).mpr (hw c hc))]
  cases r with
  | nil => rfl
  | cons c r => rw [starts_cons, ← ws_iff] at hr; simp [hr]

theorem dropWs_suffix (s : List Nat) : s.dropWhile isWs <:+ s := List.dropWhile_suffix _

/-! ### Unquoted urls -/

/-- Where the text of an unquoted url ends. -/
def UrlStop (u : List Nat) : Prop := u = [] ∨ Starts (fun c => ¬ UrlCp c ∧ c ≠ 0x5C) u ∨ ∃ r, u = 0x5C :: r ∧ Starts Newline r

theorem slash_not_url : ¬ UrlCp 0x5C := fun h => h.2.2.2.2.1 rfl

theorem urlText_det {s v u v' u' : List Nat} (h : UrlText s v u) (hu : UrlStop u) (h' : UrlText s v' u') (hu' : UrlStop u') :
    v = v' ∧ u = u' := by
  have stop : ∀ {s}, UrlStop s → ∀ {v u}, UrlText s v u → v = [] ∧ u = s := by
    intro s hs v u h
    cases h with
    | nil => exact ⟨rfl, rfl⟩
    | cp hc _ =>
      rcases hs with hs | hs | ⟨r, hs, -⟩
      · cases hs
      · rw [starts_cons] at hs; exact absurd hc hs.1
      · injection hs with hs; subst hs; exact absurd hc slash_not_url
    | esc hv _ _ =>
      rcases hs with hs | hs | ⟨r, hs, hr⟩
      · cases hs
      · rw [starts_cons] at hs; exact absurd rfl hs.2
      · injection hs with _ hs; subst hs
        obtain ⟨r', e, hn⟩ := hv
        injection e with _ e; subst e
        exact absurd hr hn
  induction h generalizing v' u' with
  | nil =>
    obtain ⟨rfl, rfl⟩ := stop hu h'
    exact ⟨rfl, rfl⟩
  | cp hc h0 ih =>
    cases h' with
    | nil =>
      obtain ⟨h, -⟩ := stop hu' (UrlText.cp hc h0)
      cases h
    | cp _ h =>
      obtain ⟨rfl, rfl⟩ := ih hu h hu'
      exact ⟨rfl, rfl⟩
    | esc => exact absurd hc slash_not_url
  | esc hv he h0 ih =>
    cases h' with
    | nil =>
      obtain ⟨h, -⟩ := stop hu' (UrlText.esc hv he h0)
      cases h
    | cp hc => exact absurd hc slash_not_url
    | esc _ he' h =>
      obtain ⟨rfl, rfl⟩ := escape_det he he'
      obtain ⟨rfl, rfl⟩ := ih hu h hu'
      exact ⟨rfl, rfl⟩

/-- What an unquoted url ends in. -/
inductive UrlEnd (v : List Nat) : List Nat → Tok → List Nat → Prop
  | eof {w : List Nat} : (∀ c ∈ w, Ws c) → UrlEnd v w (.url v) []
  | close {w r : List Nat} : (∀ c ∈ w, Ws c) → UrlEnd v (w ++ 0x29 :: r) (.url v) r
  | inner {w r' r : List Nat} : w ≠ [] → (∀ c ∈ w, Ws c) → r' ≠ [] → ¬ Starts Ws r' → ¬ Starts (· = 0x29) r' → Remnants r' r →
      UrlEnd v (w ++ r') .badUrl r
  | bad {r' r : List Nat} {c : Nat} : (Quote c ∨ c = 0x28 ∨ NonPrintable c) → Remnants r' r → UrlEnd v (c :: r') .badUrl r
  | slash {r' r : List Nat} : Starts Newline r' → Remnants r' r → UrlEnd v (0x5C :: r') .badUrl r

theorem url_iff {s r : List Nat} {t : Tok} : Url s t r ↔ ∃ v u, UrlText s v u ∧ UrlEnd v u t r := by
  constructor
  · intro h
    cases h with
    | eof h1 h2 => exact ⟨_, _, h1, .eof h2⟩
    | close h1 h2 => exact ⟨_, _, h1, .close h2⟩
    | inner h1 h2 h3 h4 h5 h6 h7 => exact ⟨_, _, h1, .inner h2 h3 h4 h5 h6 h7⟩
    | bad h1 h2 h3 => exact ⟨_, _, h1, .bad h2 h3⟩
    | slash h1 h2 h3 => exact ⟨_, _, h1, .slash h2 h3⟩
  · rintro ⟨v, u, h, h'⟩
    cases h' with
    | eof h1 => exact .eof h h1
    | close h1 => exact .close h h1
    | inner h1 h2 h3 h4 h5 h6 => exact .inner h h1 h2 h3 h4 h5 h6
    | bad h1 h2 => exact .bad h h1 h2
    | slash h1 h2 => exact .slash h h1 h2

theorem urlEnd_stop {v u r : List Nat} {t : Tok} (h : UrlEnd v u t r) : UrlStop u := by
  have ws : ∀ {c}, Ws c → ¬ UrlCp c ∧ c ≠ 0x5C := fun h => ⟨fun hc => hc.1 h, by unfold Ws at h; omega⟩
  cases h with
  | eof h =>
    cases u with
    | nil => exact .inl rfl
    | cons c u => exact .inr (.inl (by rw [starts_cons]; exact ws (h c (by simp))))
  | @close w r h =>
    cases w with
    | nil => exact .inr (.inl (by rw [List.nil_append, starts_cons]; exact ⟨fun h => h.2.2.2.1 rfl, by decide⟩))
    | cons c u => exact .inr (.inl (by rw [List.cons_append, starts_cons]; exact ws (h c (by simp))))
  | @inner w r' r h1 h2 =>
    cases w with
    | nil => exact absurd rfl h1
    | cons c u => exact .inr (.inl (by rw [List.cons_append, starts_cons]; exact ws (h2 c (by simp))))
  | bad h _ =>
    refine .inr (.inl ?_)
    rw [starts_cons]
    refine ⟨fun hc => ?_, ?_⟩
    · rcases h with h | h | h
      · exact hc.2.1 h
      · exact hc.2.2.1 h
      · exact hc.2.2.2.2.2 h
    · unfold Quote NonPrintable at h; omega
  | slash h _ => exact .inr (.inr ⟨_, rfl, h⟩)

/-- A text, the whitespace in front of it and what follows. -/
theorem ws_split {w r w' r' : List Nat} (h : w ++ r = w' ++ r') (hw : ∀ c ∈ w, Ws c) (hw' : ∀ c ∈ w', Ws c) (hr : ¬ Starts Ws r)
    (hr' : ¬ Starts Ws r') : w = w' ∧ r = r' := by
  have h1 := ws_complete hw hr
  have h2 := ws_complete hw' hr'
  rw [h, h2] at h1
  subst h1
  exact ⟨List.append_cancel_right h, rfl⟩

theorem urlEnd_det {v u r r' : List Nat} {t t' : Tok} (h : UrlEnd v u t r) (h' : UrlEnd v u t' r') : t = t' ∧ r = r' := by
  -- whitespace, what follows it, and the result
  have norm : ∀ {t r}, UrlEnd v u t r → ∃ w y, u = w ++ y ∧ (∀ c ∈ w, Ws c) ∧ ¬ Starts Ws y ∧
      ((y = [] ∧ t = .url v ∧ r = []) ∨ (y = 0x29 :: r ∧ t = .url v) ∨
       (y ≠ [] ∧ ¬ Starts (· = 0x29) y ∧ t = .badUrl ∧ (w ≠ [] → Remnants y r) ∧ (w = [] → Remnants (y.drop 1) r))) := by
    intro t r h
    cases h with
    | eof h => exact ⟨u, [], by simp, h, by simp, .inl ⟨rfl, rfl, rfl⟩⟩
    | close hw => exact ⟨_, _, rfl, hw, by simp [Ws], .inr (.inl ⟨rfl, rfl⟩)⟩
    | inner h1 h2 h3 h4 h5 h6 => exact ⟨_, _, rfl, h2, h4, .inr (.inr ⟨h3, h5, rfl, fun _ => h6, fun h => absurd h h1⟩)⟩
    | bad h1 h2 =>
      exact ⟨[], _, rfl, by simp, by rw [starts_cons]; unfold Ws Quote NonPrintable at *; omega,
        .inr (.inr ⟨by simp, by rw [starts_cons]; unfold Quote NonPrintable at *; omega, rfl, fun h => absurd rfl h, fun _ => h2⟩)⟩
    | slash h1 h2 =>
      exact ⟨[], _, rfl, by simp, by simp [Ws], .inr (.inr ⟨by simp, by simp, rfl, fun h => absurd rfl h, fun _ => h2⟩)⟩
  obtain ⟨w, y, e, h1, h2, h3⟩ := norm h
  obtain ⟨w', y', e', h1', h2', h3'⟩ := norm h'
  obtain ⟨rfl, rfl⟩ := ws_split (e.symm.trans e') h1 h1' h2 h2'
  rcases h3 with ⟨rfl, rfl, rfl⟩ | ⟨rfl, rfl⟩ | ⟨n1, n2, rfl, n3, n4⟩
  · rcases h3' with ⟨-, rfl, rfl⟩ | ⟨h, -⟩ | ⟨h, -⟩
    · exact ⟨rfl, rfl⟩
    · cases h
    · exact absurd rfl h
  · rcases h3' with ⟨h, -⟩ | ⟨h, rfl⟩ | ⟨-, h, -⟩
    · cases h
    · injection h with _ h; exact ⟨rfl, h⟩
    · simp at h
  · rcases h3' with ⟨h, -⟩ | ⟨rfl, -⟩ | ⟨-, -, rfl, n3', n4'⟩
    · exact absurd h n1
    · simp at n2
    · refine ⟨rfl, ?_⟩
      by_cases hw : w = []
      · exact remnants_det (n4 hw) (n4' hw)
      · exact remnants_det (n3 hw) (n3' hw)

theorem url_det {s r r' : List Nat} {t t' : Tok} (h : Url s t r) (h' : Url s t' r') : t = t' ∧ r = r' := by
  obtain ⟨v, u, h1, h2⟩ := url_iff.mp h
  obtain ⟨v', u', h1', h2'⟩ := url_iff.mp h'
  obtain ⟨rfl, rfl⟩ := urlText_det h1 (urlEnd_stop h2) h1' (urlEnd_stop h2')
  exact urlEnd_det h2 h2'

/-- A token with characters in front of an url. -/
def before (acc : List Nat) : Tok → Tok
  | .url v => .url (acc ++ v)
  | t => t

theorem before_nil {t : Tok} : before [] t = t := by cases t <;> rfl

theorem url_cp {c : Nat} {s r : List Nat} {t : Tok} (hc : UrlCp c) (h : Url s t r) : Url (c :: s) (before [c] t) r := by
  cases h with
  | eof h1 h2 => exact .eof (.cp hc h1) h2
  | close h1 h2 => exact .close (.cp hc h1) h2
  | inner h1 h2 h3 h4 h5 h6 h7 => exact .inner (.cp hc h1) h2 h3 h4 h5 h6 h7
  | bad h1 h2 h3 => exact .bad (.cp hc h1) h2 h3
  | slash h1 h2 h3 => exact .slash (.cp hc h1) h2 h3

/-- The loop of `consume_url_token` always ends, at or behind where it began, and finds the url if there is no escape. -/
theorem urlLoop_spec (acc s : List Nat) : ∃ r t, urlLoop acc s = some (r, t) ∧ r <:+ s ∧
    ((¬ ∃ v r, UrlText s v (0x5C :: r) ∧ ValidEscape (0x5C :: r)) → ∃ t', Url s t' r ∧ tok t = before acc t') ∧
    ((∃ v, t = .url v) ∨ t = .badUrl) := by
  induction s generalizing acc with
  | nil => exact ⟨[], .url acc, rfl, List.suffix_refl _, fun _ => ⟨_, .eof .nil (by simp), by simp [tok, before]⟩, .inl ⟨_, rfl⟩⟩
  | cons c s ih =>
    rw [urlLoop]
    split
    · rename_i hc
      subst hc
      exact ⟨s, _, rfl, List.suffix_cons _ _, fun _ => ⟨_, .close (w := []) .nil (by simp), by simp [tok, before]⟩, .inl ⟨_, rfl⟩⟩
    · rename_i hc
      split
      · rename_i hw
        obtain ⟨w, e, h1, h2⟩ := ws_sound s
        have hws : ∀ x ∈ c :: w, Ws x := by
          intro x hx
          rcases List.mem_cons.mp hx with rfl | hx
          · exact (ws_iff _).mp hw
          · exact h1 x hx
        have hsuf : s.dropWhile isWs <:+ c :: s := (dropWs_suffix s).trans (List.suffix_cons _ _)
        split
        · rename_i hd
          rw [hd, List.append_nil] at e
          subst e
          exact ⟨[], _, rfl, List.nil_suffix, fun _ => ⟨_, .eof .nil hws, by simp [tok, before]⟩, .inl ⟨_, rfl⟩⟩
        · rename_i d r' hd
          rw [hd] at e h2 hsuf
          split
          · rename_i hd'
            subst hd'
            refine ⟨r', _, rfl, (List.suffix_cons _ _).trans hsuf, fun _ => ⟨_, .close (v := []) (w := c :: w) ?_ hws, by simp [tok, before]⟩, .inl ⟨_, rfl⟩⟩
            rw [e]; exact .nil
          · rename_i hd'
            obtain ⟨r, b1, b2, b3⟩ := badUrl_spec (d :: r')
            refine ⟨r, _, b1, b2.trans hsuf, fun _ => ⟨.badUrl, .inner (w := c :: w) (v := []) ?_ (by simp) hws (by simp) h2 (by rw [starts_cons]; exact hd') b3, rfl⟩, .inr rfl⟩
            rw [e]; exact .nil
      · rename_i hw
        split
        · rename_i hq
          obtain ⟨r, b1, b2, b3⟩ := badUrl_spec s
          refine ⟨r, _, b1, b2.trans (List.suffix_cons _ _), fun _ => ⟨.badUrl, .bad .nil ?_ b3, rfl⟩, .inr rfl⟩
          rw [nonPrintable_iff] at hq
          unfold Quote
          tauto
        · rename_i hq
          split
          · rename_i hb
            subst hb
            split
            · rename_i hv
              obtain ⟨t, x, ht⟩ := escape_total s
              rw [ht]
              dsimp only
              obtain ⟨r, t, h1, h2, h3, h4⟩ := ih (acc ++ [x])
              refine ⟨r, t, h1, h2.trans (List.suffix_cons _ _), fun hn => ?_, h4⟩
              exfalso
              apply hn
              refine ⟨[], s, .nil, s, rfl, ?_⟩
              obtain ⟨r, rfl, -⟩ := validEscape_sound hv
              simp [Newline]
            · rename_i hv
              obtain ⟨r, b1, b2, b3⟩ := badUrl_spec s
              refine ⟨r, _, b1, b2.trans (List.suffix_cons _ _), fun hn => ⟨.badUrl, .slash .nil ?_ b3, rfl⟩, .inr rfl⟩
              by_contra hs
              exact hn ⟨[], s, .nil, s, rfl, hs⟩
          · rename_i hb
            have hcp : UrlCp c := by
              rw [nonPrintable_iff] at hq
              rw [ws_iff] at hw
              refine ⟨hw, ?_, ?_, hc, hb, ?_⟩
              · unfold Quote; omega
              · omega
              · intro h; exact hq (.inr (.inr (.inr h)))
            obtain ⟨r, t, h1, h2, h3, h4⟩ := ih (acc ++ [c])
            refine ⟨r, t, h1, h2.trans (List.suffix_cons _ _), fun hn => ?_, h4⟩
            obtain ⟨t', h5, h6⟩ := h3 (fun ⟨v, r, h7, h8⟩ => hn ⟨c :: v, r, .cp hcp h7, h8⟩)
            refine ⟨_, url_cp hcp h5, ?_⟩
            rw [h6]
            cases t' <;> simp [before]

end Verif.Proof.CssTok
