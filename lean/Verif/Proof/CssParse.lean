import Verif.Spec.CssParse
import Mathlib.Tactic.ByContra
import Mathlib.Tactic.Tauto
import Mathlib.Data.List.Basic
namespace Verif.Proof.CssParse
open Verif.Model.Coder Verif.Model.CssTok Verif.Model.CssParse Verif.Spec.CssParse

theorem _root_.Verif.Spec.CssParse.Plain.suffix {s r : List Prim} (h : Plain s) (hr : r <:+ s) : Plain r := fun p hp => h p (hr.subset hp)

/-! ### Facts about the relations -/

/-- What is left is a shorter end of the list, and nothing if something was left open. -/
def Left (s r : List Prim) (o : Nat) : Prop := r <:+ s ∧ (0 < o → r = [])

theorem left_trans {s r r' : List Prim} {o o' : Nat} (h : Left s r o) (h' : Left r r' o') : Left s r' (o + o') := by
  refine ⟨h'.1.trans h.1, fun ho => ?_⟩
  by_cases h1 : 0 < o'
  · exact h'.2 h1
  · have := h.2 (by omega)
    have h2 := h'.1
    rw [this] at h2
    exact List.suffix_nil.mp h2

theorem left_cons {p : Prim} {s r : List Prim} {o : Nat} (h : Left s r o) : Left (p :: s) r o := ⟨h.1.trans (List.suffix_cons _ _), h.2⟩

theorem facts (any : Bool) (n : Nat) :
    (∀ s x r o, s.length = n → Value any s x r o → Left s r o ∧ r.length < s.length) ∧
    (∀ E s vs r o, s.length = n → Items any E s vs r o → Left s r o) := by
  induction n using Nat.strongRecOn with
  | _ n ih =>
    have hV : ∀ s x r o, s.length = n → Value any s x r o → Left s r o ∧ r.length < s.length := by
      rintro s x r o hn (⟨-⟩ | - | - | ⟨-, h⟩ | ⟨h⟩)
      · exact ⟨⟨List.suffix_cons _ _, by simp⟩, by simp⟩
      · exact ⟨⟨List.suffix_cons _ _, by simp⟩, by simp⟩
      · exact ⟨⟨List.suffix_cons _ _, by simp⟩, by simp⟩
      all_goals
        rename_i s _
        have := (ih s.length (by simp only [List.length_cons] at hn; omega)).2 _ _ _ _ _ rfl h
        have hl := this.1.length_le
        exact ⟨left_cons this, by simp only [List.length_cons]; omega⟩
    refine ⟨hV, ?_⟩
    rintro E s vs r o hn (- | - | ⟨-, h1, h2⟩)
    · exact ⟨List.suffix_refl _, fun _ => rfl⟩
    · exact ⟨List.suffix_cons _ _, by simp⟩
    · obtain ⟨h3, h4⟩ := hV _ _ _ _ hn h1
      exact left_trans h3 ((ih _ (by omega)).2 _ _ _ _ _ rfl h2)

theorem value_left {any : Bool} {s r : List Prim} {x : Prim} {o : Nat} (h : Value any s x r o) : Left s r o ∧ r.length < s.length :=
  (facts any s.length).1 _ _ _ _ rfl h

theorem items_left {any : Bool} {E : Token → Prop} {s r vs : List Prim} {o : Nat} (h : Items any E s vs r o) : Left s r o :=
  (facts any s.length).2 _ _ _ _ _ rfl h

theorem pair_det {t e e' : Token} {c c' : Nat} (h : Pair t c e) (h' : Pair t c' e') : c = c' ∧ e = e' := by
  cases h <;> cases h' <;> exact ⟨rfl, rfl⟩

theorem pair_not {t e : Token} {c : Nat} (h : Pair t c e) : ¬ Preserved t := by
  cases h <;> simp [Preserved]

theorem det (any : Bool) (n : Nat) :
    (∀ s x r o x' r' o', s.length = n → Value any s x r o → Value any s x' r' o' → x = x' ∧ r = r' ∧ o = o') ∧
    (∀ E s vs r o vs' r' o', s.length = n → Items any E s vs r o → Items any E s vs' r' o' → vs = vs' ∧ r = r' ∧ o = o') := by
  induction n using Nat.strongRecOn with
  | _ n ih =>
    have hV : ∀ s x r o x' r' o', s.length = n → Value any s x r o → Value any s x' r' o' → x = x' ∧ r = r' ∧ o = o' := by
      intro s x r o x' r' o' hn h h'
      cases h with
      | token hp =>
        cases h' with
        | token => exact ⟨rfl, rfl, rfl⟩
        | block hc => exact absurd hp (pair_not hc)
        | fn => simp [Preserved] at hp
      | givenFn => cases h'; exact ⟨rfl, rfl, rfl⟩
      | givenBlock => cases h'; exact ⟨rfl, rfl, rfl⟩
      | block hc h =>
        cases h' with
        | token hp => exact absurd hp (pair_not hc)
        | block hc' h' =>
          obtain ⟨rfl, rfl⟩ := pair_det hc hc'
          obtain ⟨rfl, rfl, rfl⟩ := (ih _ (by simp only [List.length_cons] at hn; omega)).2 _ _ _ _ _ _ _ _ rfl h h'
          exact ⟨rfl, rfl, rfl⟩
        | fn => cases hc
      | fn h =>
        cases h' with
        | token hp => simp [Preserved] at hp
        | block hc' h' => cases hc'
        | fn h' =>
          obtain ⟨rfl, rfl, rfl⟩ := (ih _ (by simp only [List.length_cons] at hn; omega)).2 _ _ _ _ _ _ _ _ rfl h h'
          exact ⟨rfl, rfl, rfl⟩
    refine ⟨hV, ?_⟩
    intro E s vs r o vs' r' o' hn h h'
    cases h with
    | eof => cases h'; exact ⟨rfl, rfl, rfl⟩
    | close he =>
      cases h' with
      | close => exact ⟨rfl, rfl, rfl⟩
      | cons hp => exact absurd he (hp _ rfl)
    | cons hp h1 h2 =>
      cases h' with
      | close he => exact absurd he (hp _ rfl)
      | cons hp' h1' h2' =>
        obtain ⟨rfl, rfl, rfl⟩ := hV _ _ _ _ _ _ _ hn h1 h1'
        have := (value_left h1).2
        obtain ⟨rfl, rfl, rfl⟩ := (ih _ (by omega)).2 _ _ _ _ _ _ _ _ rfl h2 h2'
        exact ⟨rfl, rfl, rfl⟩

theorem value_det {any : Bool} {s r r' : List Prim} {x x' : Prim} {o o' : Nat} (h : Value any s x r o) (h' : Value any s x' r' o') :
    x = x' ∧ r = r' ∧ o = o' := (det any _).1 _ _ _ _ _ _ _ rfl h h'

theorem items_det {any : Bool} {E : Token → Prop} {s r r' vs vs' : List Prim} {o o' : Nat} (h : Items any E s vs r o)
    (h' : Items any E s vs' r' o') : vs = vs' ∧ r = r' ∧ o = o' := (det any _).2 _ _ _ _ _ _ _ _ rfl h h'

theorem total (any : Bool) (n : Nat) :
    (∀ s, s.length = n → s ≠ [] → Plain s → ∃ x r o, Value any s x r o) ∧
    (∀ (E : Token → Prop) s, s.length = n → Plain s → ∃ vs r o, Items any E s vs r o) := by
  induction n using Nat.strongRecOn with
  | _ n ih =>
    have hV : ∀ s, s.length = n → s ≠ [] → Plain s → ∃ x r o, Value any s x r o := by
      intro s hn hs hp
      cases s with
      | nil => exact absurd rfl hs
      | cons p s =>
        have hsub : Plain s := hp.suffix (List.suffix_cons _ _)
        have hI := fun E => (ih s.length (by simp only [List.length_cons] at hn; omega)).2 E s rfl hsub
        cases p with
        | tok t =>
          by_cases hpr : Preserved t
          · exact ⟨_, _, _, .token hpr⟩
          · have hne : t ≠ .eof := fun e => (hp (.tok t) (by simp)).1 (by rw [e])
            cases t with
            | openCurly => obtain ⟨vs, r, o, h⟩ := hI (EndsBlock any .closeCurly); exact ⟨_, _, _, .block .curly h⟩
            | openSquare => obtain ⟨vs, r, o, h⟩ := hI (EndsBlock any .closeSquare); exact ⟨_, _, _, .block .square h⟩
            | openParen => obtain ⟨vs, r, o, h⟩ := hI (EndsBlock any .closeParen); exact ⟨_, _, _, .block .paren h⟩
            | function n => obtain ⟨vs, r, o, h⟩ := hI (· = .closeParen); exact ⟨_, _, _, .fn h⟩
            | eof => exact absurd rfl hne
            | _ => exact absurd (by simp [Preserved]) hpr
        | fn n vs => exact ⟨_, _, _, .givenFn⟩
        | block c vs => exact ⟨_, _, _, .givenBlock⟩
        | other => exact absurd rfl (hp .other (by simp)).2
    refine ⟨hV, ?_⟩
    intro E s hn hp
    cases s with
    | nil => exact ⟨_, _, _, .eof⟩
    | cons p s =>
      by_cases he : ∃ t, p = .tok t ∧ E t
      · obtain ⟨t, rfl, he⟩ := he
        exact ⟨_, _, _, .close he⟩
      · obtain ⟨x, r, o, h1⟩ := hV _ hn (by simp) hp
        obtain ⟨⟨h2, -⟩, h3⟩ := value_left h1
        obtain ⟨vs, r', o', h4⟩ := (ih r.length (by omega)).2 E r rfl (hp.suffix h2)
        exact ⟨_, _, _, .cons (fun t ht he' => he ⟨t, ht, he'⟩) h1 h4⟩

theorem value_total (any : Bool) {s : List Prim} (hs : s ≠ []) (hp : Plain s) : ∃ x r o, Value any s x r o := (total any _).1 s rfl hs hp

theorem items_total (any : Bool) (E : Token → Prop) {s : List Prim} (hp : Plain s) : ∃ vs r o, Items any E s vs r o :=
  (total any _).2 E s rfl hp

/-! ### The code follows the relations, with any closing token -/

/-- The state with `rest` left of `s` and `k` reads behind the end. -/
def pos (s rest : List Prim) (k : Nat) : Nat := s.length - rest.length + k

theorem pos_cons {s t : List Prim} {p : Prim} (h : p :: t <:+ s) : pos s (p :: t) 0 + 1 = pos s t 0 := by
  have := h.length_le
  unfold pos
  simp only [List.length_cons] at *; omega

theorem pos_nil (s : List Prim) (k : Nat) : pos s [] k + 1 = pos s [] (k + 1) := by unfold pos; omega

theorem cur_cons {s t : List Prim} {p : Prim} (h : p :: t <:+ s) : cur (stream s) (pos s (p :: t) 0) = p := by
  obtain ⟨u, rfl⟩ := h
  have : pos (u ++ p :: t) (p :: t) 0 = u.length := by unfold pos; simp
  rw [this]
  simp [cur, stream]

theorem cur_nil (s : List Prim) (k : Nat) : cur (stream s) (pos s [] k) = .tok .eof := by
  have : pos s [] k = s.length + k := by unfold pos; simp
  rw [this, cur, stream, List.getD_eq_getElem?_getD]
  cases k with
  | zero => simp
  | succ k => rw [List.getElem?_eq_none (by simp)]; rfl

theorem opening_pair {t e : Token} {c : Nat} : opening t = some (c, e) ↔ Pair t c e := by
  constructor
  · intro h
    cases t <;> simp [opening] at h <;> obtain ⟨rfl, rfl⟩ := h
    · exact .square
    · exact .paren
    · exact .curly
  · intro h; cases h <;> rfl

theorem value_preserved {t : Token} (h : Preserved t) (f : Nat) {v : List Prim} {i : Nat} (hc : cur v i = .tok t) :
    consumeValue (f + 1) v i = .stop (.tok t, i + 1) := by
  rw [consumeValue, hc]; dsimp only
  obtain ⟨h1, h2, h3, h4, h5⟩ := h
  cases t <;> first | rfl | (exfalso; simp at h1 h2 h3 h4; done)

theorem value_eof (f : Nat) {v : List Prim} {i : Nat} (hc : cur v i = .tok .eof) : consumeValue (f + 1) v i = .stop (.tok .eof, i + 1) := by
  rw [consumeValue, hc]; rfl

theorem block_next (f : Nat) (v : List Prim) (e : Token) (i : Nat) (h : ∀ t, cur v i = .tok t → ¬ Closer t ∧ t ≠ .eof) :
    blockLoop (f + 1) v e i = match consumeValue f v i with
      | .stop (x, j) =>
        match blockLoop f v e j with
        | .stop (xs, k) => .stop (x :: xs, k)
        | .ub => .ub
        | .more => .more
      | .ub => .ub
      | .more => .more := by
  rw [blockLoop.eq_def]; dsimp only
  split
  · rename_i e'; exact absurd (.inl rfl) (h _ e').1
  · rename_i e'; exact absurd (.inr (.inl rfl)) (h _ e').1
  · rename_i e'; exact absurd (.inr (.inr rfl)) (h _ e').1
  · rename_i e'; exact absurd rfl (h _ e').2
  · rfl

theorem block_close (f : Nat) (v : List Prim) (e : Token) (i : Nat) {t : Token} (h : cur v i = .tok t) (ht : Closer t ∨ t = .eof) :
    blockLoop (f + 1) v e i = .stop ([], i + 1) := by
  rw [blockLoop.eq_def]; dsimp only
  rw [h]
  rcases ht with (rfl | rfl | rfl) | rfl <;> dsimp only
  · split <;> rfl
  · split <;> rfl
  · split <;> rfl

theorem fn_next (f : Nat) (v : List Prim) (i : Nat) (h : ∀ t, cur v i = .tok t → t ≠ .closeParen ∧ t ≠ .eof) :
    fnLoop (f + 1) v i = match consumeValue f v i with
      | .stop (x, j) =>
        match fnLoop f v j with
        | .stop (xs, k) => .stop (x :: xs, k)
        | .ub => .ub
        | .more => .more
      | .ub => .ub
      | .more => .more := by
  rw [fnLoop.eq_def]; dsimp only
  split
  · rename_i e'; exact absurd rfl (h _ e').1
  · rename_i e'; exact absurd rfl (h _ e').2
  · rfl

theorem fn_close (f : Nat) (v : List Prim) (i : Nat) {t : Token} (h : cur v i = .tok t) (ht : t = .closeParen ∨ t = .eof) :
    fnLoop (f + 1) v i = .stop ([], i + 1) := by
  rw [fnLoop.eq_def]; dsimp only
  rw [h]
  rcases ht with rfl | rfl <;> rfl

theorem closer_pair {t e : Token} {c : Nat} (h : Pair t c e) : Closer e := by
  cases h
  · exact .inl rfl
  · exact .inr (.inl rfl)
  · exact .inr (.inr rfl)

theorem endsBlock_iff {e t : Token} (he : Closer e) : EndsBlock true e t ↔ Closer t := by
  unfold EndsBlock
  constructor
  · rintro (rfl | ⟨-, h⟩)
    · exact he
    · exact h
  · intro h; exact .inr ⟨rfl, h⟩

/-- Where the state may be. -/
def At (s rest : List Prim) (k : Nat) : Prop := rest <:+ s ∧ (0 < k → rest = [])

theorem At.left {s rest r : List Prim} {k o : Nat} (h : At s rest k) (hl : Left rest r o) : At s r (k + o) := by
  refine ⟨hl.1.trans h.1, fun ho => ?_⟩
  by_cases h1 : 0 < o
  · exact hl.2 h1
  · have := h.2 (by omega)
    have h2 := hl.1
    rw [this] at h2
    exact List.suffix_nil.mp h2

theorem run (s : List Prim) (hp : Plain s) (n : Nat) :
    (∀ rest x r o f, rest.length = n → rest <:+ s → Value true rest x r o → 2 * rest.length + 1 ≤ f →
      consumeValue f (stream s) (pos s rest 0) = .stop (x, pos s r o)) ∧
    (∀ e rest vs r o k f, Closer e → rest.length = n → At s rest k → Items true (EndsBlock true e) rest vs r o → 2 * rest.length + 2 ≤ f →
      blockLoop f (stream s) e (pos s rest k) = .stop (vs, pos s r (k + o))) ∧
    (∀ rest vs r o k f, rest.length = n → At s rest k → Items true (· = .closeParen) rest vs r o → 2 * rest.length + 2 ≤ f →
      fnLoop f (stream s) (pos s rest k) = .stop (vs, pos s r (k + o))) := by
  induction n using Nat.strongRecOn with
  | _ n ih =>
    have hV : ∀ rest x r o f, rest.length = n → rest <:+ s → Value true rest x r o → 2 * rest.length + 1 ≤ f →
        consumeValue f (stream s) (pos s rest 0) = .stop (x, pos s r o) := by
      intro rest x r o f hn hs h hf
      obtain ⟨f, rfl⟩ : ∃ g, f = g + 1 := ⟨f - 1, by omega⟩
      cases h with
      | token h => rw [value_preserved h f (cur_cons hs), pos_cons hs]
      | givenFn => rw [consumeValue, cur_cons hs]; dsimp only [toValue]; rw [pos_cons hs]
      | givenBlock => rw [consumeValue, cur_cons hs]; dsimp only [toValue]; rw [pos_cons hs]
      | @block t e c _ s' vs _ hc h =>
        simp only [List.length_cons] at hn hf
        have := (ih _ (by omega)).2.1 e s' vs r o 0 f (closer_pair hc) rfl ⟨(List.suffix_cons _ _).trans hs, by simp⟩ h (by omega)
        rw [consumeValue, cur_cons hs]; dsimp only
        rw [opening_pair.mpr hc]; dsimp only
        rw [pos_cons hs, this, Nat.zero_add]
      | @fn n' _ s' vs _ h =>
        simp only [List.length_cons] at hn hf
        have := (ih _ (by omega)).2.2 s' vs r o 0 f rfl ⟨(List.suffix_cons _ _).trans hs, by simp⟩ h (by omega)
        rw [consumeValue, cur_cons hs]; dsimp only [opening]
        rw [pos_cons hs, this, Nat.zero_add]
    refine ⟨hV, ?_, ?_⟩
    · intro e rest vs r o k f he hn ha h hf
      obtain ⟨f, rfl⟩ : ∃ g, f = g + 1 := ⟨f - 1, by omega⟩
      cases h with
      | eof => rw [block_close f _ _ _ (cur_nil s k) (.inr rfl), pos_nil]
      | close ht =>
        have hk : k = 0 := by
          by_contra hk; have := ha.2 (by omega); simp at this
        subst hk
        rw [block_close f _ _ _ (cur_cons ha.1) (.inl ((endsBlock_iff he).mp ht)), pos_cons ha.1]
      | @cons _ p x s' r' _ vs o' o'' hp' h1 h2 =>
        have hk : k = 0 := by
          by_contra hk; have := ha.2 (by omega); simp at this
        subst hk
        have h3 := value_left h1
        rw [block_next, hV _ _ _ _ f hn ha.1 h1 (by omega)]
        · dsimp only
          rw [(ih _ (by omega)).2.1 e r' vs r o'' o' f he rfl (by simpa using ha.left h3.1) h2 (by omega)]; dsimp only
          rw [Nat.zero_add]
        · intro t ht
          rw [cur_cons ha.1] at ht
          refine ⟨fun hc => hp' t ht ((endsBlock_iff he).mpr hc), ?_⟩
          rintro rfl
          exact (hp p (ha.1.subset (by simp))).1 ht
    · intro rest vs r o k f hn ha h hf
      obtain ⟨f, rfl⟩ : ∃ g, f = g + 1 := ⟨f - 1, by omega⟩
      cases h with
      | eof => rw [fn_close f _ _ (cur_nil s k) (.inr rfl), pos_nil]
      | close ht =>
        have hk : k = 0 := by
          by_contra hk; have := ha.2 (by omega); simp at this
        subst hk
        rw [fn_close f _ _ (cur_cons ha.1) (.inl ht), pos_cons ha.1]
      | @cons _ p x s' r' _ vs o' o'' hp' h1 h2 =>
        have hk : k = 0 := by
          by_contra hk; have := ha.2 (by omega); simp at this
        subst hk
        have h3 := value_left h1
        rw [fn_next, hV _ _ _ _ f hn ha.1 h1 (by omega)]
        · dsimp only
          rw [(ih _ (by omega)).2.2 r' vs r o'' o' f rfl (by simpa using ha.left h3.1) h2 (by omega)]; dsimp only
          rw [Nat.zero_add]
        · intro t ht
          rw [cur_cons ha.1] at ht
          refine ⟨fun hc => hp' t ht hc, ?_⟩
          rintro rfl
          exact (hp p (ha.1.subset (by simp))).1 ht

theorem run_value {s rest r : List Prim} {x : Prim} {o f : Nat} (hp : Plain s) (hs : rest <:+ s) (h : Value true rest x r o)
    (hf : 2 * rest.length + 1 ≤ f) : consumeValue f (stream s) (pos s rest 0) = .stop (x, pos s r o) :=
  (run s hp _).1 _ _ _ _ _ rfl hs h hf

theorem run_block {s rest r vs : List Prim} {e : Token} {o k f : Nat} (hp : Plain s) (he : Closer e) (ha : At s rest k)
    (h : Items true (EndsBlock true e) rest vs r o) (hf : 2 * rest.length + 2 ≤ f) :
    blockLoop f (stream s) e (pos s rest k) = .stop (vs, pos s r (k + o)) := (run s hp _).2.1 _ _ _ _ _ _ _ he rfl ha h hf

end Verif.Proof.CssParse
