import Verif.Proof.CssParseLoops
namespace Verif.Proof.CssParse
open Verif.Model.Coder Verif.Model.CssTok Verif.Model.CssParse Verif.Spec.CssParse

/-! ### Whitespace -/

/-- The predicate of the loops over whitespace. -/
def isWs (p : Prim) : Bool := match p with | .tok .whitespace => true | _ => false

theorem isWs_iff (p : Prim) : isWs p = true ↔ p = .tok .whitespace := by
  constructor
  · intro h
    cases p with
    | tok t => cases t <;> first | rfl | cases h
    | _ => cases h
  · rintro rfl; rfl

theorem blank_split (s : List Prim) : Blank (s.takeWhile isWs) ∧ ¬ WsHead (s.dropWhile isWs) := by
  constructor
  · intro p hp
    have := List.all_takeWhile (p := isWs) (l := s)
    rw [List.all_eq_true] at this
    exact (isWs_iff p).mp (this p hp)
  · rintro ⟨r, h⟩
    have := List.head?_dropWhile_not isWs s
    rw [h] at this
    simp [isWs] at this

theorem dropWhile_blank {w s : List Prim} (hw : Blank w) (hs : ¬ WsHead s) : (w ++ s).dropWhile isWs = s := by
  rw [List.dropWhile_append_of_pos (fun p hp => (isWs_iff p).mpr (hw p hp))]
  cases s with
  | nil => rfl
  | cons p s =>
    rw [List.dropWhile_cons_of_neg]
    intro h
    exact hs ⟨s, by rw [(isWs_iff p).mp h]⟩

theorem ws_unique {w w' s s' : List Prim} (h : w ++ s = w' ++ s') (hw : Blank w) (hw' : Blank w') (hs : ¬ WsHead s) (hs' : ¬ WsHead s') :
    w = w' ∧ s = s' := by
  have h1 := dropWhile_blank hw hs
  have h2 := dropWhile_blank hw' hs'
  rw [h] at h1
  have h3 : s = s' := h1.symm.trans h2
  subst h3
  exact ⟨List.append_cancel_right h, rfl⟩

theorem drop_pos {s rest : List Prim} (hs : rest <:+ s) : (stream s).drop (pos s rest 0) = rest ++ [.tok .eof] := by
  obtain ⟨u, rfl⟩ := hs
  have : pos (u ++ rest) rest 0 = u.length := by unfold pos; simp
  rw [this, stream, List.append_assoc, List.drop_left]

theorem skip_behind (s : List Prim) (k : Nat) (hk : 0 < k) : skipWs (stream s) (pos s [] k) = none := by
  unfold skipWs
  rw [List.drop_of_length_le (by simp [stream, pos]; omega)]
  rfl

/-- The token at the front. -/
def front (s : List Prim) : Prim := s.headD (.tok .eof)

theorem skip_ws {s w rest : List Prim} (hs : w ++ rest <:+ s) (hw : Blank w) (hn : ¬ WsHead rest) :
    skipWs (stream s) (pos s (w ++ rest) 0) = some (pos s rest 0, front rest) := by
  have h1 : (w ++ rest ++ [Prim.tok .eof]).dropWhile isWs = rest ++ [.tok .eof] := by
    rw [List.append_assoc]
    refine dropWhile_blank hw ?_
    rintro ⟨r, h⟩
    cases rest with
    | nil => cases h
    | cons p t =>
      refine hn ⟨t, ?_⟩
      rw [List.cons_append] at h
      injection h with h; rw [h]
  have h2 : skipWs (stream s) (pos s (w ++ rest) 0) = match rest ++ [.tok .eof] with
    | [] => none
    | p :: r => some ((stream s).length - (r.length + 1), p) := by
    rw [← h1, ← drop_pos hs]; rfl
  rw [h2]
  have h3 : rest <:+ s := (List.suffix_append w rest).trans hs
  have hl := h3.length_le
  cases rest with
  | nil => simp [stream, pos, front]
  | cons p t => simp [stream, pos, front]

theorem skip_start {s w rest : List Prim} (h : s = w ++ rest) (hw : Blank w) (hn : ¬ WsHead rest) :
    skipWs (stream s) 0 = some (pos s rest 0, front rest) := by
  subst h
  have := skip_ws (List.suffix_refl (w ++ rest)) hw hn
  rw [pos_start] at this
  exact this

theorem suffix_left (w s : List Prim) : s <:+ w ++ s := List.suffix_append w s

/-! ### One component value -/

/-- A whole list is whitespace and something else. -/
theorem split_ws (s : List Prim) : ∃ w rest, s = w ++ rest ∧ Blank w ∧ ¬ WsHead rest :=
  ⟨_, _, List.takeWhile_append_dropWhile.symm, (blank_split s).1, (blank_split s).2⟩

theorem front_ne_eof {s : List Prim} (hp : Plain s) (hs : s ≠ []) : front s ≠ .tok .eof := by
  cases s with
  | nil => exact absurd rfl hs
  | cons p s => exact (hp p (by simp)).1

theorem blank_iff {w rest : List Prim} (hw : Blank w) (hn : ¬ WsHead rest) : Blank (w ++ rest) ↔ rest = [] := by
  constructor
  · intro h
    cases rest with
    | nil => rfl
    | cons p t => exact absurd ⟨t, by rw [h p (by simp)]⟩ hn
  · rintro rfl; simpa using hw

theorem at_left {s rest r : List Prim} {o : Nat} (hs : rest <:+ s) (h : Left rest r o) : At s r o := ⟨h.1.trans hs, h.2⟩

/-- The end of `parse_rule` and `parse_component_value`. -/
theorem finish {α : Type} {s r : List Prim} {o : Nat} (hp : Plain s) (hr : At s r o) (x : α) (res : Ends (Option α))
    (hres : res = match skipWs (stream s) (pos s r o) with
      | none => .ub
      | some (_, .tok .eof) => .stop (some x)
      | some _ => .stop none) :
    (0 < o → res = .ub) ∧ (o = 0 → Blank r → res = .stop (some x)) ∧ (o = 0 → ¬ Blank r → res = .stop none) := by
  refine ⟨fun ho => ?_, ?_, ?_⟩
  · rw [hres, hr.2 ho, skip_behind s o ho]
  · rintro rfl hb
    have : pos s r 0 = pos s (r ++ []) 0 := by simp
    rw [hres, this, skip_ws (by simpa using hr.1) hb (by rintro ⟨_, h⟩; cases h)]; rfl
  · rintro rfl hb
    obtain ⟨w, rest, rfl, hw, hn⟩ := split_ws r
    rw [hres, skip_ws hr.1 hw hn]
    have h1 : rest ≠ [] := fun h => hb ((blank_iff hw hn).mpr h)
    have h2 := front_ne_eof (hp.suffix ((suffix_left w rest).trans hr.1)) h1
    split
    · rename_i e; cases e
    · rename_i e; injection e with e; injection e with _ e; exact absurd e h2
    · rfl

theorem value_eq {f : Nat} {s w rest : List Prim} (hp : Plain s) (h : s = w ++ rest) (hw : Blank w) (hn : ¬ WsHead rest) (hne : rest ≠ []) :
    parseValue f s = match consumeValue f (stream s) (pos s rest 0) with
      | .stop (x, j) =>
        match skipWs (stream s) j with
        | none => .ub
        | some (_, .tok .eof) => .stop (some x)
        | some _ => .stop none
      | .ub => .ub
      | .more => .more := by
  have h0 := skip_start h hw hn
  have h2 := front_ne_eof (hp.suffix (by rw [h]; exact suffix_left w rest)) hne
  unfold parseValue
  dsimp only
  rw [h0]
  split
  · rename_i e; cases e
  · rename_i e; injection e with e; injection e with _ e; exact absurd e h2
  · rename_i e; injection e with e; injection e with e _; rw [← e]; rfl

theorem parse_empty {s : List Prim} (hb : Blank s) : skipWs (stream s) 0 = some (pos s [] 0, .tok .eof) := by
  have := skip_ws (s := s) (w := s) (rest := []) (by simp) hb (by rintro ⟨_, h⟩; cases h)
  rw [List.append_nil, pos_start] at this
  exact this

theorem parseValue_spec {f : Nat} {s : List Prim} (hp : Plain s) (hf : 2 * s.length + 1 ≤ f) :
    (Blank s → parseValue f s = .stop none) ∧
    ∀ w rest x r o, s = w ++ rest → Blank w → ¬ WsHead rest → Value true rest x r o →
      (0 < o → parseValue f s = .ub) ∧ (o = 0 → Blank r → parseValue f s = .stop (some x)) ∧ (o = 0 → ¬ Blank r → parseValue f s = .stop none) := by
  refine ⟨fun hb => ?_, ?_⟩
  · unfold parseValue; dsimp only; rw [parse_empty hb]
  · intro w rest x r o h hw hn hv
    have hs : rest <:+ s := by rw [h]; exact suffix_left w rest
    have hl := hs.length_le
    refine finish hp (r := r) (o := o) (at_left hs (value_left hv).1) x _ ?_
    rw [value_eq hp h hw hn (not_nil hv), run_value hp hs hv (by omega)]

/-! ### One rule -/

theorem rule_start {f : Nat} {s w rest : List Prim} (hp : Plain s) (h : s = w ++ rest) (hw : Blank w) (hn : ¬ WsHead rest) (hne : rest ≠ [])
    {x : Option Rule} {r : List Prim} {o : Nat} (hr : RuleAt true rest x r o) (hf : 2 * s.length + 2 ≤ f) :
    parseRule f s = match x with
      | none => .stop none
      | some y =>
        match skipWs (stream s) (pos s r o) with
        | none => .ub
        | some (_, .tok .eof) => .stop (some y)
        | some _ => .stop none := by
  have h0 := skip_start h hw hn
  have h2 := front_ne_eof (hp.suffix (by rw [h]; exact suffix_left w rest)) hne
  have hs : rest <:+ s := by rw [h]; exact suffix_left w rest
  have hl := hs.length_le
  unfold parseRule
  dsimp only
  rw [h0]
  by_cases hat : ∃ n t, rest = .tok (.atKeyword n) :: t
  · obtain ⟨n, t, rfl⟩ := hat
    obtain ⟨y, rfl, hy⟩ := run_consumeAt hp hs hr (f := f) (by simp only [List.length_cons] at hl; omega)
    dsimp only [front, List.headD_cons]
    rw [hy]; dsimp only
    cases skipWs (stream s) (pos s r o) with
    | none => rfl
    | some q => rfl
  · have hq := run_consumeQual hp (k := 0) ⟨hs, by simp⟩ (fun n t e => hat ⟨n, t, e⟩) hr (f := f) (by omega)
    rw [Nat.zero_add] at hq
    split
    · rename_i e; cases e
    · rename_i e; injection e with e; injection e with _ e; exact absurd e h2
    · rename_i n e; injection e with e; injection e with _ e
      cases rest with
      | nil => exact absurd rfl hne
      | cons p t => exact absurd ⟨n, t, by rw [show p = _ from e]⟩ hat
    · rename_i e; injection e with e; injection e with e _
      rw [← e, hq]
      cases x with
      | none => rfl
      | some y =>
        dsimp only
        cases skipWs (stream s) (pos s r o) with
        | none => rfl
        | some q => rfl

theorem parseRule_spec {f : Nat} {s : List Prim} (hp : Plain s) (hf : 2 * s.length + 2 ≤ f) :
    (Blank s → parseRule f s = .stop none) ∧
    (∀ w rest r o, s = w ++ rest → Blank w → ¬ WsHead rest → rest ≠ [] → RuleAt true rest none r o → parseRule f s = .stop none) ∧
    ∀ w rest x r o, s = w ++ rest → Blank w → ¬ WsHead rest → rest ≠ [] → RuleAt true rest (some x) r o →
      (0 < o → parseRule f s = .ub) ∧ (o = 0 → Blank r → parseRule f s = .stop (some x)) ∧ (o = 0 → ¬ Blank r → parseRule f s = .stop none) := by
  refine ⟨fun hb => ?_, ?_, ?_⟩
  · unfold parseRule; dsimp only; rw [parse_empty hb]
  · intro w rest r o h hw hn hne hv
    rw [rule_start hp h hw hn hne hv hf]
  · intro w rest x r o h hw hn hne hv
    have hs : rest <:+ s := by rw [h]; exact suffix_left w rest
    refine finish hp (r := r) (o := o) (at_left hs (ruleAt_left hv).1) x _ ?_
    rw [rule_start hp h hw hn hne hv hf]

/-! ### Rules that are not at the top level -/

theorem items_last {any : Bool} {E : Token → Prop} (n : Nat) : ∀ {s vs r : List Prim} {o : Nat}, s.length = n → Items any E s vs r o →
    0 < o ∨ ∃ t, E t ∧ .tok t :: r <:+ s := by
  induction n using Nat.strongRecOn with
  | _ n ih =>
    intro s vs r o hn h
    cases h with
    | eof => exact .inl (by simp)
    | close h => exact .inr ⟨_, h, List.suffix_refl _⟩
    | cons _ h1 h2 =>
      obtain ⟨h3, h4⟩ := value_left h1
      rcases ih _ (by omega) rfl h2 with h | ⟨t, h, h'⟩
      · exact .inl (by omega)
      · exact .inr ⟨t, h, h'.trans h3.1⟩

theorem prelude_last {s vs r : List Prim} {b : Option Prim} {o : Nat} (h : Prelude true false s vs b r o) :
    0 < o ∨ ∃ p, (∀ n, p ≠ .tok (.atKeyword n)) ∧ p :: r <:+ s := by
  induction h with
  | eof => exact .inl (by simp)
  | semi h => cases h
  | curly h =>
    rcases items_last _ rfl h with h | ⟨t, h, h'⟩
    · exact .inl h
    · refine .inr ⟨_, ?_, h'.trans (List.suffix_cons _ _)⟩
      rintro n e
      injection e with e
      subst e
      rcases (endsBlock_iff closer_curly).mp h with h | h | h <;> cases h
  | given => exact .inr ⟨_, fun n e => (by cases e), List.suffix_refl _⟩
  | cons _ _ _ h1 _ ih =>
    obtain ⟨h3, h4⟩ := value_left h1
    rcases ih with h | ⟨t, h, h'⟩
    · exact .inl (by omega)
    · exact .inr ⟨t, h, h'.trans h3.1⟩

theorem qual_last {s vs r : List Prim} {b : Option Prim} {o : Nat} {rest : List Prim} (hs : rest <:+ s) (hne : rest ≠ [])
    (h : Prelude true false rest vs b r o) (f : Nat) : consumeAt f (stream s) (pos s r o - 1) = .ub := by
  have key : ∀ n, cur (stream s) (pos s r o - 1) ≠ .tok (.atKeyword n) := by
    intro n e
    rcases prelude_last h with ho | ⟨p, hp, hr⟩
    · obtain rfl := (prelude_left h).1.2 ho
      have : pos s [] o - 1 = pos s [] (o - 1) := by unfold pos; omega
      rw [this, cur_nil] at e
      cases e
    · by_cases ho : 0 < o
      · obtain rfl := (prelude_left h).1.2 ho
        have : pos s [] o - 1 = pos s [] (o - 1) := by unfold pos; omega
        rw [this, cur_nil] at e
        cases e
      · obtain rfl : o = 0 := by omega
        have h1 := pos_cons (hr.trans hs)
        rw [← h1, Nat.add_sub_cancel, cur_cons (hr.trans hs)] at e
        exact hp n e
  unfold consumeAt
  split
  · rename_i e; exact absurd e (key _)
  · rfl

end Verif.Proof.CssParse
