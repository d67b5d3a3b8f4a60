import Verif.Proof.CssParse
import Verif.Proof.CssToken
namespace Verif.Proof.CssParse
open Verif.Model.Coder Verif.Model.CssTok Verif.Model.CssParse Verif.Spec.CssParse

theorem value_ne_eof {any : Bool} {s r : List Prim} {x : Prim} {o : Nat} (h : Value any s x r o) : x ≠ .tok .eof := by
  cases h with
  | token h => intro e; injection e with e; exact h.2.2.2.2 e
  | _ => exact fun e => by cases e

theorem not_nil {any : Bool} {s r : List Prim} {x : Prim} {o : Nat} (h : Value any s x r o) : s ≠ [] := by
  rintro rfl; cases h

theorem At.zero {s rest : List Prim} {k : Nat} (h : At s rest k) (hn : rest ≠ []) : k = 0 := by
  by_contra hk; exact hn (h.2 (by omega))

theorem at_start (s : List Prim) : At s s 0 := ⟨List.suffix_refl _, by simp⟩

theorem pos_start (s : List Prim) : pos s s 0 = 0 := by unfold pos; omega

/-! ### Lists of component values -/

theorem list_next {f : Nat} {v : List Prim} {i j : Nat} {x : Prim} (h : consumeValue f v i = .stop (x, j)) (hx : x ≠ .tok .eof) :
    listLoop (f + 1) v i = match listLoop f v j with
      | .stop xs => .stop (x :: xs)
      | .ub => .ub
      | .more => .more := by
  rw [listLoop.eq_def]; dsimp only
  rw [h]
  split
  · rename_i e; injection e with e; injection e with e _; exact absurd e hx
  · rename_i e; injection e with e; injection e with e1 e2; rw [e1, e2]; cases listLoop f v _ <;> rfl
  · rename_i e; cases e
  · rename_i e; cases e

theorem run_list {s : List Prim} (hp : Plain s) : ∀ (n : Nat) {rest vs : List Prim} {k f : Nat}, rest.length = n → At s rest k →
    Values true rest vs → 2 * rest.length + 2 ≤ f → listLoop f (stream s) (pos s rest k) = .stop vs := by
  intro n
  induction n using Nat.strongRecOn with
  | _ n ih =>
    intro rest vs k f hn ha h hf
    obtain ⟨f, rfl⟩ : ∃ g, f = g + 2 := ⟨f - 2, by omega⟩
    cases h with
    | nil => rw [listLoop.eq_def]; dsimp only; rw [value_eof f (cur_nil s k)]
    | @cons _ r vs x o h1 h2 =>
      obtain rfl := ha.zero (not_nil h1)
      obtain ⟨h3, h4⟩ := value_left h1
      rw [list_next (run_value hp ha.1 h1 (by omega)) (value_ne_eof h1),
        ih r.length (by omega) rfl (by simpa using ha.left h3) h2 (by omega)]

theorem values_total (any : Bool) : ∀ (n : Nat) {s : List Prim}, s.length = n → Plain s → ∃ vs, Values any s vs := by
  intro n
  induction n using Nat.strongRecOn with
  | _ n ih =>
    intro s hn hp
    by_cases hs : s = []
    · subst hs; exact ⟨_, .nil⟩
    · obtain ⟨x, r, o, h⟩ := value_total any hs hp
      have h2 := value_left h
      obtain ⟨vs, h3⟩ := ih r.length (by omega) rfl (hp.suffix h2.1.1)
      exact ⟨_, .cons h h3⟩

theorem values_det {any : Bool} : ∀ {s vs vs' : List Prim}, Values any s vs → Values any s vs' → vs = vs' := by
  intro s vs vs' h
  induction h generalizing vs' with
  | nil => intro h'; cases h' with
    | nil => rfl
    | cons h => cases h
  | cons h _ ih =>
    intro h'
    cases h' with
    | nil => cases h
    | cons h1 h2 =>
      obtain ⟨rfl, rfl, rfl⟩ := value_det h h1
      rw [ih h2]

theorem parseValues_spec {s vs : List Prim} {f : Nat} (hp : Plain s) (h : Values true s vs) (hf : 2 * s.length + 2 ≤ f) :
    parseValues f s = .stop vs := by
  have := run_list hp _ rfl (at_start s) h hf
  rw [pos_start] at this
  exact this

/-! ### Comma-separated lists -/

theorem comma_next {f : Nat} {v : List Prim} {i j : Nat} {x : Prim} (h : consumeValue f v i = .stop (x, j)) (hx : x ≠ .tok .eof)
    (hc : x ≠ .tok .comma) (y : List Prim) : commaLoop (f + 1) v y i = commaLoop f v (y ++ [x]) j := by
  rw [commaLoop.eq_def]; dsimp only
  rw [h]
  split
  · rename_i e; injection e with e; injection e with e _; exact absurd e hx
  · rename_i e; injection e with e; injection e with e _; exact absurd e hc
  · rename_i e; injection e with e; injection e with e1 e2; rw [e1, e2]
  · rename_i e; cases e
  · rename_i e; cases e

theorem run_comma {s : List Prim} (hp : Plain s) : ∀ (n : Nat) {rest vs y : List Prim} {k f : Nat}, rest.length = n → At s rest k →
    Values true rest vs → (∀ x ∈ y, x ≠ .tok .comma) → 2 * rest.length + 2 ≤ f →
    ∃ xss, commaLoop f (stream s) y (pos s rest k) = .stop xss ∧ xss ≠ [] ∧ List.intercalate [.tok .comma] xss = y ++ vs ∧
      ∀ xs ∈ xss, ∀ x ∈ xs, x ≠ .tok .comma := by
  intro n
  induction n using Nat.strongRecOn with
  | _ n ih =>
    intro rest vs y k f hn ha h hy hf
    obtain ⟨f, rfl⟩ : ∃ g, f = g + 2 := ⟨f - 2, by omega⟩
    cases h with
    | nil =>
      refine ⟨[y], ?_, by simp, by simp, by simpa using hy⟩
      rw [commaLoop.eq_def]; dsimp only; rw [value_eof f (cur_nil s k)]
    | @cons _ r vs x o h1 h2 =>
      obtain rfl := ha.zero (not_nil h1)
      obtain ⟨h3, h4⟩ := value_left h1
      by_cases hc : x = .tok .comma
      · obtain ⟨xss, h5, h6, h7, h8⟩ := ih r.length (by omega) rfl (by simpa using ha.left h3) h2 (y := []) (f := f + 1) (by simp) (by omega)
        refine ⟨y :: xss, ?_, by simp, ?_, ?_⟩
        · rw [commaLoop.eq_def]; dsimp only
          rw [run_value hp ha.1 h1 (by omega), hc]; dsimp only
          rw [h5]
        · rw [hc]
          cases xss with
          | nil => exact absurd rfl h6
          | cons a b => rw [List.intercalate_cons_cons, h7]; simp
        · intro xs hxs
          rcases List.mem_cons.mp hxs with rfl | hxs
          · exact hy
          · exact h8 xs hxs
      · obtain ⟨xss, h5, h6, h7, h8⟩ := ih r.length (by omega) rfl (by simpa using ha.left h3) h2 (y := y ++ [x]) (f := f + 1)
          (by
            intro z hz
            rcases List.mem_append.mp hz with hz | hz
            · exact hy z hz
            · rw [List.mem_singleton.mp hz]; exact hc) (by omega)
        refine ⟨xss, ?_, h6, by rw [h7]; simp, h8⟩
        rw [comma_next (run_value hp ha.1 h1 (by omega)) (value_ne_eof h1) hc, h5]

/-! ### Rules -/

theorem prelude_left {any semi : Bool} {s vs r : List Prim} {b : Option Prim} {o : Nat} (h : Prelude any semi s vs b r o) :
    Left s r o ∧ (s ≠ [] → r.length < s.length) := by
  induction h with
  | eof => exact ⟨⟨List.suffix_refl _, fun _ => rfl⟩, by simp⟩
  | semi => exact ⟨⟨List.suffix_cons _ _, by simp⟩, by simp⟩
  | curly h =>
    have := items_left h
    have hl := this.1.length_le
    exact ⟨left_cons this, by simp only [List.length_cons]; omega⟩
  | given => exact ⟨⟨List.suffix_cons _ _, by simp⟩, by simp⟩
  | cons _ _ _ h1 _ ih =>
    obtain ⟨h2, h3⟩ := value_left h1
    have hl := ih.1.1.length_le
    exact ⟨left_trans h2 ih.1, fun _ => by omega⟩

theorem prelude_total (any semi : Bool) : ∀ (n : Nat) {s : List Prim}, s.length = n → Plain s → ∃ vs b r o, Prelude any semi s vs b r o := by
  intro n
  induction n using Nat.strongRecOn with
  | _ n ih =>
    intro s hn hp
    cases s with
    | nil => exact ⟨_, _, _, _, .eof⟩
    | cons p s =>
      by_cases h1 : semi = true ∧ p = .tok .semicolon
      · obtain ⟨h1, rfl⟩ := h1; exact ⟨_, _, _, _, .semi h1⟩
      by_cases h2 : p = .tok .openCurly
      · subst h2
        obtain ⟨vs, r, o, h⟩ := items_total any (EndsBlock any .closeCurly) (hp.suffix (List.suffix_cons _ _))
        exact ⟨_, _, _, _, .curly h⟩
      by_cases h3 : ∃ vs, p = .block 0x7B vs
      · obtain ⟨vs, rfl⟩ := h3; exact ⟨_, _, _, _, .given⟩
      obtain ⟨x, r, o, h⟩ := value_total any (List.cons_ne_nil p s) hp
      have h4 := value_left h
      obtain ⟨vs, b, r', o', h5⟩ := ih r.length (by omega) rfl (hp.suffix h4.1.1)
      exact ⟨_, _, _, _, .cons (fun hs hp => h1 ⟨hs, hp⟩) h2 (fun vs hv => h3 ⟨vs, hv⟩) h h5⟩

theorem prelude_det {any semi : Bool} {s vs r vs' r' : List Prim} {b b' : Option Prim} {o o' : Nat} (h : Prelude any semi s vs b r o)
    (h' : Prelude any semi s vs' b' r' o') : vs = vs' ∧ b = b' ∧ r = r' ∧ o = o' := by
  induction h generalizing vs' b' r' o' with
  | eof => cases h'; exact ⟨rfl, rfl, rfl, rfl⟩
  | semi h =>
    cases h' with
    | semi => exact ⟨rfl, rfl, rfl, rfl⟩
    | cons h1 => exact absurd rfl (h1 h)
  | curly h =>
    cases h' with
    | curly h1 => obtain ⟨rfl, rfl, rfl⟩ := items_det h h1; exact ⟨rfl, rfl, rfl, rfl⟩
    | cons _ h1 => exact absurd rfl h1
  | given =>
    cases h' with
    | given => exact ⟨rfl, rfl, rfl, rfl⟩
    | cons _ _ h1 => exact absurd rfl (h1 _)
  | cons h1 h2 h3 h4 _ ih =>
    cases h' with
    | semi h => exact absurd rfl (h1 h)
    | curly => exact absurd rfl h2
    | given => exact absurd rfl (h3 _)
    | cons _ _ _ h5 h6 =>
      obtain ⟨rfl, rfl, rfl⟩ := value_det h4 h5
      obtain ⟨rfl, rfl, rfl, rfl⟩ := ih h6
      exact ⟨rfl, rfl, rfl, rfl⟩

theorem at_next {f : Nat} {v : List Prim} {i : Nat} {p : Prim} (hc : cur v i = p) (h1 : p ≠ .tok .semicolon) (h2 : p ≠ .tok .eof)
    (h3 : p ≠ .tok .openCurly) (h4 : ∀ vs, p ≠ .block 0x7B vs) :
    atLoop (f + 1) v i = match consumeValue f v i with
      | .stop (x, j) =>
        match atLoop f v j with
        | .stop (xs, b, k) => .stop (x :: xs, b, k)
        | .ub => .ub
        | .more => .more
      | .ub => .ub
      | .more => .more := by
  rw [atLoop.eq_def]; dsimp only
  rw [hc]
  split
  · exact absurd rfl h1
  · exact absurd rfl h2
  · exact absurd rfl h3
  · rw [if_neg (by rintro rfl; exact h4 _ rfl)]
    rfl
  · rfl

theorem qual_next {f : Nat} {v : List Prim} {i : Nat} {p : Prim} (hc : cur v i = p) (h2 : p ≠ .tok .eof)
    (h3 : p ≠ .tok .openCurly) (h4 : ∀ vs, p ≠ .block 0x7B vs) :
    qualLoop (f + 1) v i = match consumeValue f v i with
      | .stop (x, j) =>
        match qualLoop f v j with
        | .stop (xs, b, k) => .stop (x :: xs, b, k)
        | .ub => .ub
        | .more => .more
      | .ub => .ub
      | .more => .more := by
  rw [qualLoop.eq_def]; dsimp only
  rw [hc]
  split
  · exact absurd rfl h2
  · exact absurd rfl h3
  · rw [if_neg (by rintro rfl; exact h4 _ rfl)]
    rfl
  · rfl

theorem closer_curly : Closer .closeCurly := .inl rfl

theorem run_at {s : List Prim} (hp : Plain s) : ∀ (n : Nat) {rest vs r : List Prim} {b : Option Prim} {o k f : Nat}, rest.length = n →
    At s rest k → Prelude true true rest vs b r o → 2 * rest.length + 2 ≤ f →
    atLoop f (stream s) (pos s rest k) = .stop (vs, b, pos s r (k + o)) := by
  intro n
  induction n using Nat.strongRecOn with
  | _ n ih =>
    intro rest vs r b o k f hn ha h hf
    obtain ⟨f, rfl⟩ : ∃ g, f = g + 1 := ⟨f - 1, by omega⟩
    cases h with
    | eof => rw [atLoop.eq_def]; dsimp only; rw [cur_nil]; dsimp only; rw [pos_nil]
    | semi =>
      obtain rfl := ha.zero (by simp)
      rw [atLoop.eq_def]; dsimp only; rw [cur_cons ha.1]; dsimp only; rw [pos_cons ha.1]
    | curly h =>
      obtain rfl := ha.zero (by simp)
      simp only [List.length_cons] at hn hf
      rw [atLoop.eq_def]; dsimp only; rw [cur_cons ha.1]; dsimp only
      rw [pos_cons ha.1, run_block hp closer_curly ⟨(List.suffix_cons _ _).trans ha.1, by simp⟩ h (by omega)]
    | given =>
      obtain rfl := ha.zero (by simp)
      rw [atLoop.eq_def]; dsimp only; rw [cur_cons ha.1]; dsimp only; rw [if_pos rfl, pos_cons ha.1]
    | @cons p x s' r' _ vs b o' o'' h1 h2 h3 h4 h5 =>
      obtain rfl := ha.zero (by simp)
      obtain ⟨h6, h7⟩ := value_left h4
      have h8 : p ≠ .tok .eof := (hp p (ha.1.subset (by simp))).1
      rw [at_next (cur_cons ha.1) (h1 rfl) h8 h2 h3, run_value hp ha.1 h4 (by omega)]; dsimp only
      rw [ih _ (by omega) rfl (by simpa using ha.left h6) h5 (by omega)]; dsimp only
      rw [Nat.zero_add]

theorem run_qual {s : List Prim} (hp : Plain s) : ∀ (n : Nat) {rest vs r : List Prim} {b : Option Prim} {o k f : Nat}, rest.length = n →
    At s rest k → Prelude true false rest vs b r o → 2 * rest.length + 2 ≤ f →
    qualLoop f (stream s) (pos s rest k) = .stop (vs, b, pos s r (k + o)) := by
  intro n
  induction n using Nat.strongRecOn with
  | _ n ih =>
    intro rest vs r b o k f hn ha h hf
    obtain ⟨f, rfl⟩ : ∃ g, f = g + 1 := ⟨f - 1, by omega⟩
    cases h with
    | eof => rw [qualLoop.eq_def]; dsimp only; rw [cur_nil]; dsimp only; rw [pos_nil]
    | semi h => cases h
    | curly h =>
      obtain rfl := ha.zero (by simp)
      simp only [List.length_cons] at hn hf
      rw [qualLoop.eq_def]; dsimp only; rw [cur_cons ha.1]; dsimp only
      rw [pos_cons ha.1, run_block hp closer_curly ⟨(List.suffix_cons _ _).trans ha.1, by simp⟩ h (by omega)]
    | given =>
      obtain rfl := ha.zero (by simp)
      rw [qualLoop.eq_def]; dsimp only; rw [cur_cons ha.1]; dsimp only; rw [if_pos rfl, pos_cons ha.1]
    | @cons p x s' r' _ vs b o' o'' h1 h2 h3 h4 h5 =>
      obtain rfl := ha.zero (by simp)
      obtain ⟨h6, h7⟩ := value_left h4
      have h8 : p ≠ .tok .eof := (hp p (ha.1.subset (by simp))).1
      rw [qual_next (cur_cons ha.1) h8 h2 h3, run_value hp ha.1 h4 (by omega)]; dsimp only
      rw [ih _ (by omega) rfl (by simpa using ha.left h6) h5 (by omega)]; dsimp only
      rw [Nat.zero_add]

theorem ruleAt_left {any : Bool} {s r : List Prim} {x : Option Rule} {o : Nat} (h : RuleAt any s x r o) :
    Left s r o ∧ (s ≠ [] → r.length < s.length) := by
  cases h with
  | «at» h =>
    have := (prelude_left h).1
    have hl := this.1.length_le
    exact ⟨left_cons this, fun _ => by simp only [List.length_cons]; omega⟩
  | qualified _ h => exact prelude_left h
  | lost _ h => exact prelude_left h

theorem ruleAt_total (any : Bool) {s : List Prim} (hp : Plain s) : ∃ x r o, RuleAt any s x r o := by
  by_cases h : ∃ n r, s = .tok (.atKeyword n) :: r
  · obtain ⟨n, r, rfl⟩ := h
    obtain ⟨vs, b, r', o, h⟩ := prelude_total any true _ rfl (hp.suffix (List.suffix_cons _ _))
    exact ⟨_, _, _, .at h⟩
  · obtain ⟨vs, b, r', o, h'⟩ := prelude_total any false _ rfl hp
    have hn : ∀ n r, s ≠ .tok (.atKeyword n) :: r := fun n r e => h ⟨n, r, e⟩
    cases b with
    | none => exact ⟨_, _, _, .lost hn h'⟩
    | some b => exact ⟨_, _, _, .qualified hn h'⟩

theorem ruleAt_det {any : Bool} {s r r' : List Prim} {x x' : Option Rule} {o o' : Nat} (h : RuleAt any s x r o) (h' : RuleAt any s x' r' o') :
    x = x' ∧ r = r' ∧ o = o' := by
  cases h with
  | «at» h =>
    cases h' with
    | «at» h' => obtain ⟨rfl, rfl, rfl, rfl⟩ := prelude_det h h'; exact ⟨rfl, rfl, rfl⟩
    | qualified hn => exact absurd rfl (hn _ _)
    | lost hn => exact absurd rfl (hn _ _)
  | qualified hn h =>
    cases h' with
    | «at» h' => exact absurd rfl (hn _ _)
    | qualified _ h' => obtain ⟨rfl, e, rfl, rfl⟩ := prelude_det h h'; injection e with e; subst e; exact ⟨rfl, rfl, rfl⟩
    | lost _ h' => obtain ⟨rfl, e, rfl, rfl⟩ := prelude_det h h'; cases e
  | lost hn h =>
    cases h' with
    | «at» h' => exact absurd rfl (hn _ _)
    | qualified _ h' => obtain ⟨rfl, e, rfl, rfl⟩ := prelude_det h h'; cases e
    | lost _ h' => obtain ⟨rfl, e, rfl, rfl⟩ := prelude_det h h'; exact ⟨rfl, rfl, rfl⟩

theorem run_consumeAt {s rest r : List Prim} {n : List Nat} {x : Option Rule} {o f : Nat} (hp : Plain s) (ha : .tok (.atKeyword n) :: rest <:+ s)
    (h : RuleAt true (.tok (.atKeyword n) :: rest) x r o) (hf : 2 * rest.length + 2 ≤ f) :
    ∃ y, x = some y ∧ consumeAt f (stream s) (pos s (.tok (.atKeyword n) :: rest) 0) = .stop (y, pos s r o) := by
  cases h with
  | «at» h =>
    refine ⟨_, rfl, ?_⟩
    rw [consumeAt, cur_cons ha]; dsimp only
    rw [pos_cons ha, run_at hp _ rfl ⟨(List.suffix_cons _ _).trans ha, by simp⟩ h hf]; dsimp only
    rw [Nat.zero_add]
  | qualified hn => exact absurd rfl (hn _ _)
  | lost hn => exact absurd rfl (hn _ _)

theorem run_consumeQual {s rest r : List Prim} {x : Option Rule} {o f k : Nat} (hp : Plain s) (ha : At s rest k)
    (hn : ∀ n r', rest ≠ .tok (.atKeyword n) :: r') (h : RuleAt true rest x r o) (hf : 2 * rest.length + 2 ≤ f) :
    consumeQual f (stream s) (pos s rest k) = .stop (x, pos s r (k + o)) := by
  cases h with
  | «at» h => exact absurd rfl (hn _ _)
  | qualified _ h => rw [consumeQual, run_qual hp _ rfl ha h hf]
  | lost _ h => rw [consumeQual, run_qual hp _ rfl ha h hf]

theorem rules_other {f : Nat} {top : Bool} {v : List Prim} {i : Nat} {p : Prim} (hc : cur v i = p) (h1 : p ≠ .tok .whitespace)
    (h2 : p ≠ .tok .eof) (h3 : p ≠ .tok .cdo) (h4 : p ≠ .tok .cdc) (h5 : ∀ n, p ≠ .tok (.atKeyword n)) {x : Option Rule} {j : Nat}
    (h : consumeQual f v i = .stop (x, j)) :
    rulesLoop (f + 1) top v i = match rulesLoop f top v j with
      | .stop xs => .stop (x.toList ++ xs)
      | .ub => .ub
      | .more => .more := by
  rw [rulesLoop.eq_def]; dsimp only
  rw [hc]
  split
  · exact absurd rfl h1
  · exact absurd rfl h2
  · exact absurd rfl h3
  · exact absurd rfl h4
  · exact absurd rfl (h5 _)
  · rw [h]; dsimp only; cases rulesLoop f top v j <;> rfl

theorem run_rules {s : List Prim} (hp : Plain s) : ∀ (n : Nat) {rest : List Prim} {rs : List Rule} {k f : Nat}, rest.length = n →
    At s rest k → Rules true true rest rs → 2 * rest.length + 3 ≤ f → rulesLoop f true (stream s) (pos s rest k) = .stop rs := by
  intro n
  induction n using Nat.strongRecOn with
  | _ n ih =>
    intro rest rs k f hn ha h hf
    obtain ⟨f, rfl⟩ : ∃ g, f = g + 1 := ⟨f - 1, by omega⟩
    cases h with
    | nil => rw [rulesLoop.eq_def]; dsimp only; rw [cur_nil]
    | skip hb h =>
      obtain rfl := ha.zero (by simp)
      simp only [List.length_cons] at hn hf
      have := ih _ (by omega) rfl ⟨(List.suffix_cons _ _).trans ha.1, by simp⟩ h (f := f) (k := 0) (by omega)
      rw [rulesLoop.eq_def]; dsimp only; rw [cur_cons ha.1]
      rcases hb with rfl | ⟨-, rfl | rfl⟩ <;> dsimp only
      · rw [pos_cons ha.1, this]; rfl
      · rw [if_pos rfl, pos_cons ha.1, this]; rfl
      · rw [if_pos rfl, pos_cons ha.1, this]; rfl
    | @rule p s' r x rs o hb h h' =>
      obtain rfl := ha.zero (by simp)
      obtain ⟨hl, hl'⟩ := ruleAt_left h
      have hl' := hl' (by simp)
      have hr := ih _ (by omega) rfl (ha.left hl) h' (f := f) (by omega)
      rw [Nat.zero_add] at hr
      by_cases hat : ∃ n, p = .tok (.atKeyword n)
      · obtain ⟨n, rfl⟩ := hat
        obtain ⟨y, rfl, hy⟩ := run_consumeAt hp ha.1 h (f := f) (by simp only [List.length_cons] at hf; omega)
        rw [rulesLoop.eq_def]; dsimp only; rw [cur_cons ha.1]; dsimp only
        rw [hy]; dsimp only
        rw [hr]; rfl
      · have hq := run_consumeQual hp ha (fun n r' e => by injection e with e; exact hat ⟨n, e⟩) h (f := f) (by omega)
        rw [Nat.zero_add] at hq
        rw [rules_other (cur_cons ha.1) (fun e => hb (.inl e)) (hp p (ha.1.subset (by simp))).1 (fun e => hb (.inr ⟨rfl, .inl e⟩))
          (fun e => hb (.inr ⟨rfl, .inr e⟩)) (fun n e => hat ⟨n, e⟩) hq, hr]

theorem rules_total (any top : Bool) : ∀ (n : Nat) {s : List Prim}, s.length = n → Plain s → ∃ rs, Rules any top s rs := by
  intro n
  induction n using Nat.strongRecOn with
  | _ n ih =>
    intro s hn hp
    cases s with
    | nil => exact ⟨_, .nil⟩
    | cons p s =>
      by_cases hb : Between top p
      · obtain ⟨rs, h⟩ := ih s.length (by simp only [List.length_cons] at hn; omega) rfl (hp.suffix (List.suffix_cons _ _))
        exact ⟨_, .skip hb h⟩
      · obtain ⟨x, r, o, h⟩ := ruleAt_total any hp
        obtain ⟨hl, hl'⟩ := ruleAt_left h
        have hl' := hl' (by simp)
        obtain ⟨rs, h'⟩ := ih r.length (by omega) rfl (hp.suffix hl.1)
        exact ⟨_, .rule hb h h'⟩

theorem rules_det {any top : Bool} {s : List Prim} {rs rs' : List Rule} (h : Rules any top s rs) (h' : Rules any top s rs') : rs = rs' := by
  induction h generalizing rs' with
  | nil => cases h'; rfl
  | skip hb _ ih =>
    cases h' with
    | skip _ h => exact ih h
    | rule hb' => exact absurd hb hb'
  | rule hb h1 _ ih =>
    cases h' with
    | skip hb' => exact absurd hb' hb
    | rule _ h2 h3 =>
      obtain ⟨rfl, rfl, rfl⟩ := ruleAt_det h1 h2
      rw [ih h3]

theorem consumeRules_spec {s : List Prim} {rs : List Rule} {f : Nat} (hp : Plain s) (h : Rules true true s rs) (hf : 2 * s.length + 3 ≤ f) :
    consumeRules f true s = .stop rs := by
  have := run_rules hp _ rfl (at_start s) h hf
  rw [pos_start] at this
  exact this

end Verif.Proof.CssParse
