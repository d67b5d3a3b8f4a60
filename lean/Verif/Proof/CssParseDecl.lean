import Verif.Proof.CssParseOne
namespace Verif.Proof.CssParse
open Verif.Model.Infra Verif.Model.Coder Verif.Model.CssTok Verif.Model.CssParse Verif.Spec.CssParse

/-! ### `consume_list_of_rules` below the top level -/

theorem run_inner {s : List Prim} (hp : Plain s) : ∀ (n : Nat) {rest : List Prim} {rs : List Rule} {k f : Nat}, rest.length = n →
    At s rest k → Rules true false rest rs → 2 * rest.length + 3 ≤ f →
    (¬ Stray true rest ∧ rulesLoop f false (stream s) (pos s rest k) = .stop rs) ∨
    (Stray true rest ∧ rulesLoop f false (stream s) (pos s rest k) = .ub) := by
  intro n
  induction n using Nat.strongRecOn with
  | _ n ih =>
    intro rest rs k f hn ha h hf
    obtain ⟨f, rfl⟩ : ∃ g, f = g + 1 := ⟨f - 1, by omega⟩
    cases h with
    | nil => exact .inl ⟨(fun h => by cases h), (by rw [rulesLoop.eq_def]; dsimp only; rw [cur_nil])⟩
    | @skip p s' _ hb h =>
      obtain rfl := ha.zero (by simp)
      simp only [List.length_cons] at hn hf
      have := ih _ (by omega) rfl ⟨(List.suffix_cons _ _).trans ha.1, by simp⟩ h (f := f) (k := 0) (by omega)
      rcases hb with rfl | ⟨hb, -⟩
      · have he : rulesLoop (f + 1) false (stream s) (pos s (.tok .whitespace :: s') 0) = rulesLoop f false (stream s) (pos s s' 0) := by
          rw [rulesLoop.eq_def]; dsimp only; rw [cur_cons ha.1]; dsimp only
          rw [pos_cons ha.1]
          cases rulesLoop f false (stream s) (pos s s' 0) <;> rfl
        rw [he]
        rcases this with ⟨h1, h2⟩ | ⟨h1, h2⟩
        · refine .inl ⟨fun h => ?_, h2⟩
          cases h with
          | here h => rcases h with h | h <;> cases h
          | skip h => exact h1 h
          | next h => exact absurd rfl h
        · exact .inr ⟨.skip h1, h2⟩
      · cases hb
    | @rule p s' r x rs o hb h h' =>
      obtain rfl := ha.zero (by simp)
      obtain ⟨hl, hl'⟩ := ruleAt_left h
      have hl' := hl' (by simp)
      have hr := ih _ (by omega) rfl (ha.left hl) h' (f := f) (by omega)
      rw [Nat.zero_add] at hr
      have hws : p ≠ .tok .whitespace := fun e => hb (.inl e)
      have hstray : p ≠ .tok .cdo → p ≠ .tok .cdc → (Stray true (p :: s') ↔ Stray true r) := by
        intro h1 h2
        constructor
        · intro h3
          cases h3 with
          | here h => exact absurd h (by rintro (h | h) <;> contradiction)
          | skip => exact absurd rfl hws
          | next _ h4 h5 =>
            obtain ⟨-, rfl, -⟩ := ruleAt_det h h4
            exact h5
        · exact .next hws h
      by_cases hat : ∃ n, p = .tok (.atKeyword n)
      · obtain ⟨n, rfl⟩ := hat
        obtain ⟨y, rfl, hy⟩ := run_consumeAt hp ha.1 h (f := f) (by simp only [List.length_cons] at hf; omega)
        rw [hstray (by simp) (by simp), rulesLoop.eq_def]; dsimp only; rw [cur_cons ha.1]; dsimp only
        rw [hy]; dsimp only
        rcases hr with ⟨h1, h2⟩ | ⟨h1, h2⟩
        · exact .inl ⟨h1, by rw [h2]; rfl⟩
        · exact .inr ⟨h1, by rw [h2]⟩
      · have hna : ∀ n r', p :: s' ≠ .tok (.atKeyword n) :: r' := fun n r' e => by injection e with e; exact hat ⟨n, e⟩
        have hq := run_consumeQual hp ha hna h (f := f) (by omega)
        rw [Nat.zero_add] at hq
        by_cases hc : p = .tok .cdo ∨ p = .tok .cdc
        · refine .inr ⟨.here hc, ?_⟩
          have hu : consumeAt f (stream s) (pos s r o - 1) = .ub := by
            cases h with
            | «at» h => exact absurd rfl (hna _ _)
            | qualified _ h => exact qual_last ha.1 (by simp) h f
            | lost _ h => exact qual_last ha.1 (by simp) h f
          rw [rulesLoop.eq_def]; dsimp only; rw [cur_cons ha.1]
          rcases hc with rfl | rfl <;> dsimp only
          · rw [if_neg (by simp), hq]; dsimp only; rw [hu]
          · rw [if_neg (by simp), hq]; dsimp only; rw [hu]
        · have h1 : p ≠ .tok .cdo := fun e => hc (.inl e)
          have h2 : p ≠ .tok .cdc := fun e => hc (.inr e)
          rw [hstray h1 h2, rules_other (cur_cons ha.1) hws (hp p (ha.1.subset (by simp))).1 h1 h2 (fun n e => hat ⟨n, e⟩) hq]
          rcases hr with ⟨h3, h4⟩ | ⟨h3, h4⟩
          · exact .inl ⟨h3, by rw [h4]⟩
          · exact .inr ⟨h3, by rw [h4]⟩

/-! ### Values up to a semicolon -/

theorem until_left {any semi : Bool} {s vs r : List Prim} {o : Nat} (h : Until any semi s vs r o) : Left s r o ∧ vs.length + r.length ≤ s.length := by
  induction h with
  | eof => exact ⟨⟨List.suffix_refl _, fun _ => rfl⟩, by simp⟩
  | semi => exact ⟨⟨List.suffix_refl _, by simp⟩, by simp⟩
  | cons _ h1 _ ih =>
    obtain ⟨h2, h3⟩ := value_left h1
    exact ⟨left_trans h2 ih.1, by have := ih.2; simp only [List.length_cons] at *; omega⟩

theorem until_total (any semi : Bool) : ∀ (n : Nat) {s : List Prim}, s.length = n → Plain s → ∃ vs r o, Until any semi s vs r o := by
  intro n
  induction n using Nat.strongRecOn with
  | _ n ih =>
    intro s hn hp
    cases s with
    | nil => exact ⟨_, _, _, .eof⟩
    | cons p s =>
      by_cases h1 : semi = true ∧ p = .tok .semicolon
      · obtain ⟨h1, rfl⟩ := h1; exact ⟨_, _, _, .semi h1⟩
      obtain ⟨x, r, o, h⟩ := value_total any (List.cons_ne_nil p s) hp
      have h4 := value_left h
      obtain ⟨vs, r', o', h5⟩ := ih r.length (by omega) rfl (hp.suffix h4.1.1)
      exact ⟨_, _, _, .cons (fun hs hp => h1 ⟨hs, hp⟩) h h5⟩

theorem until_det {any semi : Bool} {s vs r vs' r' : List Prim} {o o' : Nat} (h : Until any semi s vs r o)
    (h' : Until any semi s vs' r' o') : vs = vs' ∧ r = r' ∧ o = o' := by
  induction h generalizing vs' r' o' with
  | eof => cases h'; exact ⟨rfl, rfl, rfl⟩
  | semi h =>
    cases h' with
    | semi => exact ⟨rfl, rfl, rfl⟩
    | cons h1 => exact absurd rfl (h1 h)
  | cons h1 h4 _ ih =>
    cases h' with
    | semi h => exact absurd rfl (h1 h)
    | cons _ h5 h6 =>
      obtain ⟨rfl, rfl, rfl⟩ := value_det h4 h5
      obtain ⟨rfl, rfl, rfl⟩ := ih h6
      exact ⟨rfl, rfl, rfl⟩

theorem until_values {any : Bool} {s vs r : List Prim} {o : Nat} (h : Until any false s vs r o) : r = [] ∧ Values any s vs := by
  induction h with
  | eof => exact ⟨rfl, .nil⟩
  | semi h => cases h
  | cons _ h1 _ ih => exact ⟨ih.1, .cons h1 ih.2⟩

theorem until_plain {any semi : Bool} {s vs r : List Prim} {o : Nat} (h : Until any semi s vs r o) : Plain vs := by
  induction h with
  | eof => simp [Plain]
  | semi => simp [Plain]
  | cons _ h1 _ ih =>
    intro p hp
    rcases List.mem_cons.mp hp with rfl | hp
    · exact ⟨value_ne_eof h1, by rintro rfl; cases h1⟩
    · exact ih p hp

theorem until_some {any semi : Bool} {t vs r : List Prim} {p : Prim} {o : Nat} (hs : p ≠ .tok .semicolon) (h : Until any semi (p :: t) vs r o) :
    0 < vs.length := by
  cases h with
  | semi => exact absurd rfl hs
  | cons => simp

theorem get_cons {s t : List Prim} {p : Prim} (h : p :: t <:+ s) : (stream s)[pos s (p :: t) 0]? = some p := by
  obtain ⟨u, rfl⟩ := h
  have : pos (u ++ p :: t) (p :: t) 0 = u.length := by unfold pos; simp
  rw [this]
  simp [stream]

theorem get_nil (s : List Prim) (k : Nat) : (stream s)[pos s [] k]? = if k = 0 then some (.tok .eof) else none := by
  have : pos s [] k = s.length + k := by unfold pos; simp
  rw [this, stream]
  split
  · rename_i h; subst h; simp
  · rw [List.getElem?_eq_none (by simp; omega)]

theorem until_next {f : Nat} {semi : Bool} {v : List Prim} {i : Nat} {p : Prim} (hc : v[i]? = some p) (h1 : p ≠ .tok .eof)
    (h2 : semi = true → p ≠ .tok .semicolon) :
    untilLoop (f + 1) semi v i = match consumeValue f v i with
      | .stop (x, j) =>
        match untilLoop f semi v j with
        | .stop (xs, k) => .stop (x :: xs, k)
        | .ub => .ub
        | .more => .more
      | .ub => .ub
      | .more => .more := by
  rw [untilLoop.eq_def]; dsimp only
  rw [hc]
  split
  · rename_i e; cases e
  · rename_i e; injection e with e; exact absurd e h1
  · rename_i e; injection e with e
    rw [if_neg (fun hs => h2 hs e)]
    rfl
  · rfl

theorem run_until {s : List Prim} (hp : Plain s) {semi : Bool} : ∀ (n : Nat) {rest vs r : List Prim} {o k f : Nat}, rest.length = n →
    At s rest k → Until true semi rest vs r o → 2 * rest.length + 2 ≤ f →
    untilLoop f semi (stream s) (pos s rest k) = if k + o = 0 then .stop (vs, pos s r 0) else .ub := by
  intro n
  induction n using Nat.strongRecOn with
  | _ n ih =>
    intro rest vs r o k f hn ha h hf
    obtain ⟨f, rfl⟩ : ∃ g, f = g + 1 := ⟨f - 1, by omega⟩
    cases h with
    | eof =>
      rw [untilLoop.eq_def]; dsimp only; rw [get_nil]
      by_cases hk : k = 0
      · subst hk; rfl
      · rw [if_neg hk, if_neg (show ¬ k + 0 = 0 by omega)]
    | semi h =>
      obtain rfl := ha.zero (by simp)
      rw [untilLoop.eq_def]; dsimp only; rw [get_cons ha.1]; dsimp only; rw [if_pos h]; rfl
    | @cons p x s' r' _ vs o' o'' h1 h2 h3 =>
      obtain rfl := ha.zero (by simp)
      obtain ⟨h6, h7⟩ := value_left h2
      rw [until_next (get_cons ha.1) (hp p (ha.1.subset (by simp))).1 h1, run_value hp ha.1 h2 (by omega)]; dsimp only
      rw [ih _ (by omega) rfl (by simpa using ha.left h6) h3 (by omega), Nat.zero_add]
      by_cases ho : o' + o'' = 0
      · rw [if_pos ho, if_pos ho]
      · rw [if_neg ho, if_neg ho]

/-! ### `!important` -/

theorem blank_reverse {w : List Prim} : Blank w.reverse ↔ Blank w := by simp [Blank]

instance (n : List Nat) : Decidable (Important n) := by unfold Important; infer_instance

theorem important_iff (n : List Nat) :
    isAsciiCaseInsensitiveMatch .c32 .c32 n [0x69, 0x6D, 0x70, 0x6F, 0x72, 0x74, 0x61, 0x6E, 0x74] = some (decide (Important n)) := by
  rw [Verif.Proof.CssTok.ci32]
  have : ([0x69, 0x6D, 0x70, 0x6F, 0x72, 0x74, 0x61, 0x6E, 0x74] : List Nat).map Verif.Spec.Infra.lower = Verif.Spec.Percent.codes "important" := by
    decide
  rw [this]; rfl

theorem loop_blank (st : Bool) {w : List Prim} (hw : Blank w) (t : List Prim) : importantLoop st (w ++ t) = importantLoop st t := by
  induction w with
  | nil => rfl
  | cons p w ih =>
    obtain rfl := hw p (by simp)
    rw [List.cons_append, importantLoop]
    exact ih fun q hq => hw q (by simp [hq])

/-- The three ends of `process_important`. -/
theorem important_spec (v : List Prim) :
    (Meagre v ∧ processImportant v = none) ∨
    (¬ Meagre v ∧ ∃ u w2 w3 n, v = u ++ .tok (.delim 0x21) :: w2 ++ .tok (.ident n) :: w3 ∧ Blank w2 ∧ Blank w3 ∧ Important n ∧
      processImportant v = some (some u)) ∨
    (¬ Meagre v ∧ (¬ ∃ u w2 w3 n, Blank w2 ∧ Blank w3 ∧ Important n ∧ v = u ++ .tok (.delim 0x21) :: w2 ++ .tok (.ident n) :: w3) ∧
      processImportant v = some none) := by
  have hone : ∀ p t, ¬ WsHead (p :: t) → (∀ n, p = .tok (.ident n) → ¬ Important n) → importantLoop false (p :: t) = some none := by
    intro p t hn hp
    cases p with
    | tok c =>
      cases c with
      | whitespace => exact absurd ⟨t, rfl⟩ hn
      | ident n =>
        rw [importantLoop]
        rw [if_neg (by simp), important_iff, decide_eq_false (hp n rfl)]
      | delim c => rw [importantLoop]; rw [if_neg (by simp)]
      | _ => rfl
    | _ => rfl
  have htwo : ∀ p t, ¬ WsHead (p :: t) → p ≠ .tok (.delim 0x21) → importantLoop true (p :: t) = some none := by
    intro p t hn hp
    cases p with
    | tok c =>
      cases c with
      | whitespace => exact absurd ⟨t, rfl⟩ hn
      | ident n => rw [importantLoop]; rw [if_pos rfl]
      | delim c =>
        rw [importantLoop]; rw [if_neg]
        rintro ⟨-, rfl⟩; exact hp rfl
      | _ => rfl
    | _ => rfl
  obtain ⟨w, t, h, hw, hn⟩ := split_ws v.reverse
  have hv : v = t.reverse ++ w.reverse := by rw [← List.reverse_append, ← h, List.reverse_reverse]
  have hpi : processImportant v = importantLoop false t := by unfold processImportant; rw [h, loop_blank false hw]
  rw [hpi]
  -- what the two shapes mean for the reversed list
  have hm : Meagre v → t = [] ∨ ∃ n w2, t = .tok (.ident n) :: w2 ∧ Blank w2 ∧ Important n := by
    rintro (hb | ⟨w1, w2, n, rfl, h1, h2, h3⟩)
    · left
      rw [hv] at hb
      cases t with
      | nil => rfl
      | cons p t => exact absurd ⟨t, by rw [hb p (by simp)]⟩ hn
    · right
      rw [List.reverse_append, List.reverse_cons, List.append_assoc] at h
      obtain ⟨-, h4⟩ := ws_unique h (blank_reverse.mpr h2) hw (by rintro ⟨r, h⟩; cases h) hn
      exact ⟨n, w1.reverse, h4.symm, blank_reverse.mpr h1, h3⟩
  have hq : ∀ u w2 w3 n, Blank w2 → Blank w3 → v = u ++ .tok (.delim 0x21) :: w2 ++ .tok (.ident n) :: w3 →
      t = .tok (.ident n) :: (w2.reverse ++ .tok (.delim 0x21) :: u.reverse) := by
    intro u w2 w3 n h1 h2 h3
    rw [h3] at h
    simp only [List.reverse_append, List.reverse_cons, List.append_assoc, List.singleton_append] at h
    have := (ws_unique h (blank_reverse.mpr h2) hw (by rintro ⟨r, h⟩; cases h) hn).2.symm
    simpa using this
  cases t with
  | nil =>
    refine .inl ⟨.inl ?_, rfl⟩
    rw [hv]
    simpa using blank_reverse.mpr hw
  | cons p t =>
    by_cases hp : ∃ n, p = .tok (.ident n) ∧ Important n
    · obtain ⟨n, rfl, hi⟩ := hp
      have he : importantLoop false (.tok (.ident n) :: t) = importantLoop true t := by
        rw [importantLoop]
        rw [if_neg (by simp), important_iff, decide_eq_true hi]
      rw [he]
      obtain ⟨w', t', rfl, hw', hn'⟩ := split_ws t
      rw [loop_blank true hw']
      have hmm : Meagre v → t' = [] := by
        intro hm'
        rcases hm hm' with e | ⟨m, w2, e, hb, -⟩
        · cases e
        · injection e with _ e
          rw [← List.append_nil w2] at e
          exact (ws_unique e hw' hb hn' (by rintro ⟨r, h⟩; cases h)).2
      cases t' with
      | nil =>
        refine .inl ⟨.inr ⟨w'.reverse, w.reverse, n, ?_, blank_reverse.mpr hw', blank_reverse.mpr hw, hi⟩, rfl⟩
        rw [hv]; simp
      | cons q t' =>
        have hnm : ¬ Meagre v := fun e => by cases hmm e
        by_cases hd : q = .tok (.delim 0x21)
        · subst hd
          refine .inr (.inl ⟨hnm, t'.reverse, w'.reverse, w.reverse, n, ?_, blank_reverse.mpr hw', blank_reverse.mpr hw, hi, ?_⟩)
          · rw [hv]; simp
          · rw [importantLoop]; rw [if_pos ⟨rfl, rfl⟩]
        · refine .inr (.inr ⟨hnm, ?_, htwo q t' hn' hd⟩)
          rintro ⟨u, w2, w3, m, h1, h2, -, h4⟩
          have := hq u w2 w3 m h1 h2 h4
          injection this with _ this
          have := (ws_unique this hw' (blank_reverse.mpr h1) hn' (by rintro ⟨r, h⟩; cases h)).2
          injection this with this
          exact hd this
    · refine .inr (.inr ⟨?_, ?_, hone p t hn fun n e hi => hp ⟨n, e, hi⟩⟩)
      · intro hm'
        rcases hm hm' with e | ⟨m, w2, e, hb, hi⟩
        · cases e
        · injection e with e; exact hp ⟨m, e, hi⟩
      · rintro ⟨u, w2, w3, m, h1, h2, hi, h4⟩
        have := hq u w2 w3 m h1 h2 h4
        injection this with e
        exact hp ⟨m, e, hi⟩

theorem dropTrailing_spec (v : List Prim) : ∃ w, v = dropTrailing v ++ w ∧ Blank w ∧ ¬ WsHead (dropTrailing v).reverse := by
  refine ⟨(v.reverse.takeWhile isWs).reverse, ?_, blank_reverse.mpr (blank_split v.reverse).1, ?_⟩
  · have : v.reverse.reverse = (v.reverse.takeWhile isWs ++ v.reverse.dropWhile isWs).reverse := by rw [List.takeWhile_append_dropWhile]
    rw [List.reverse_append, List.reverse_reverse] at this
    exact this
  · have : (dropTrailing v).reverse = v.reverse.dropWhile isWs := by unfold dropTrailing; rw [List.reverse_reverse]; rfl
    rw [this]
    exact (blank_split v.reverse).2

/-- The value of a declaration. -/
theorem trim_spec {v : List Prim} (h : ¬ Meagre v) : ∃ u b, Trimmed v u b ∧
    (match processImportant v with
      | none => (.ub : Ends (List Prim × Bool))
      | some (some xs) => .stop (dropTrailing xs, true)
      | some none => .stop (dropTrailing v, false)) = .stop (u, b) := by
  rcases important_spec v with ⟨h1, -⟩ | ⟨-, u, w2, w3, n, h1, h2, h3, h4, h5⟩ | ⟨-, h1, h2⟩
  · exact absurd h1 h
  · obtain ⟨w, h6, h7, h8⟩ := dropTrailing_spec u
    refine ⟨dropTrailing u, true, ?_, by rw [h5]⟩
    have := Trimmed.important h7 h2 h3 h4 h8
    rw [← h6, ← h1] at this
    exact this
  · obtain ⟨w, h6, h7, h8⟩ := dropTrailing_spec v
    refine ⟨dropTrailing v, false, ?_, by rw [h2]⟩
    have := Trimmed.plain h7 h8 (by rw [← h6]; exact h1)
    rw [← h6] at this
    exact this

theorem consumeDecl_spec {s rest : List Prim} {n : List Nat} {f : Nat} (hp : Plain s) (hs : .tok (.ident n) :: rest <:+ s)
    (hf : 2 * rest.length + 2 ≤ f) :
    (¬ Faulty true rest ∧ ∃ d, Declared true n rest d ∧ consumeDecl f (stream s) (pos s (.tok (.ident n) :: rest) 0) = .stop d) ∨
    (Faulty true rest ∧ consumeDecl f (stream s) (pos s (.tok (.ident n) :: rest) 0) = .ub) := by
  have hs1 : rest <:+ s := (List.suffix_cons _ _).trans hs
  obtain ⟨w1, t, rfl, hw1, hn1⟩ := split_ws rest
  unfold consumeDecl
  rw [cur_cons hs]
  dsimp only
  rw [pos_cons hs, skip_ws hs1 hw1 hn1]
  by_cases hc : ∃ t', t = .tok .colon :: t'
  · obtain ⟨t', rfl⟩ := hc
    obtain ⟨w2, u, rfl, hw2, hn2⟩ := split_ws t'
    have hs2 : .tok .colon :: (w2 ++ u) <:+ s := (suffix_left _ _).trans hs1
    have hs3 : w2 ++ u <:+ s := (List.suffix_cons _ _).trans hs2
    have hs4 : u <:+ s := (suffix_left _ _).trans hs3
    obtain ⟨vs, r, o, hu⟩ := until_total true false _ rfl (hp.suffix hs4)
    obtain ⟨rfl, hv⟩ := until_values hu
    have hf' : Faulty true (w1 ++ .tok .colon :: (w2 ++ u)) ↔ (0 < o ∨ Meagre vs) := by
      constructor
      · rintro ⟨a1, a2, a3, a4, a5, h1, h2, h3, h4, h5, h6⟩
        rw [List.append_assoc] at h1
        have h7 := (ws_unique h1 hw1 h2 hn1 (by rintro ⟨_, e⟩; cases e)).2
        rw [List.cons_append] at h7
        injection h7 with _ h7
        obtain ⟨rfl, rfl⟩ := ws_unique h7 hw2 h3 hn2 h4
        obtain ⟨rfl, -, rfl⟩ := until_det hu h5
        exact h6
      · intro h
        exact ⟨w1, w2, u, vs, o, by simp, hw1, hw2, hn2, hu, h⟩
    rw [hf']
    dsimp only [front, List.headD_cons]
    have hl : (w2 ++ u).length ≤ (w1 ++ Prim.tok .colon :: (w2 ++ u)).length := by simp; omega
    have hl2 : u.length ≤ (w2 ++ u).length := by simp
    rw [pos_cons hs2, skip_ws hs3 hw2 hn2]; dsimp only
    rw [run_until hp _ rfl ⟨hs4, by simp⟩ hu (by omega)]
    by_cases ho : o = 0
    · subst ho
      rw [if_pos rfl]; dsimp only
      by_cases hm : Meagre vs
      · refine .inr ⟨.inr hm, ?_⟩
        rcases important_spec vs with ⟨-, h⟩ | ⟨h, -⟩ | ⟨h, -⟩
        · rw [h]
        · exact absurd hm h
        · exact absurd hm h
      · obtain ⟨v, b, h1, h2⟩ := trim_spec hm
        refine .inl ⟨by rintro (h | h); exact absurd h (by omega); exact hm h, some ⟨n, v, b⟩, ?_, ?_⟩
        · have := Declared.decl (n := n) hw1 hw2 hn2 hv h1
          rw [List.append_assoc, List.cons_append] at this
          exact this
        · revert h2
          cases processImportant vs with
          | none => intro h; cases h
          | some q =>
            cases q with
            | none => intro h; injection h with h; injection h with h h'; rw [← h, ← h']
            | some q => intro h; injection h with h; injection h with h h'; rw [← h, ← h']
    · rw [if_neg (by omega)]
      exact .inr ⟨.inl (by omega), rfl⟩
  · have hf' : ¬ Faulty true (w1 ++ t) := by
      rintro ⟨a1, a2, a3, a4, a5, h1, h2, -⟩
      rw [List.append_assoc] at h1
      have h7 := (ws_unique h1 hw1 h2 hn1 (by rintro ⟨_, e⟩; cases e)).2
      exact hc ⟨_, h7⟩
    refine .inl ⟨hf', none, .none hw1 hn1 (fun r e => hc ⟨r, e⟩), ?_⟩
    cases t with
    | nil => rfl
    | cons p t =>
      dsimp only [front, List.headD_cons]
      split
      · rename_i e; cases e
      · rename_i e; injection e with e; injection e with _ e; exact absurd ⟨t, by rw [e]⟩ hc
      · rfl

theorem parseDecl_spec {s : List Prim} {f : Nat} (hp : Plain s) (hf : 2 * s.length + 2 ≤ f) {w rest : List Prim} (h : s = w ++ rest) (hw : Blank w) :
    (∀ n t, rest = .tok (.ident n) :: t → (¬ Faulty true t ∧ ∃ d, Declared true n t d ∧ parseDecl f s = .stop d) ∨
      (Faulty true t ∧ parseDecl f s = .ub)) ∧
    (¬ WsHead rest → (∀ n t, rest ≠ .tok (.ident n) :: t) → parseDecl f s = .stop (some ⟨[], [], false⟩)) := by
  constructor
  · rintro n t rfl
    have hs : .tok (.ident n) :: t <:+ s := by rw [h]; exact suffix_left _ _
    have hl := hs.length_le
    have h0 := skip_start h hw (by rintro ⟨_, e⟩; cases e)
    have he : parseDecl f s = consumeDecl f (stream s) (pos s (.tok (.ident n) :: t) 0) := by
      unfold parseDecl; rw [h0]; rfl
    rw [he]
    exact consumeDecl_spec hp hs (by simp only [List.length_cons] at hl; omega)
  · intro hn hr
    unfold parseDecl
    rw [skip_start h hw hn]
    split
    · rename_i e; cases e
    · rename_i e; injection e with e; injection e with _ e
      cases rest with
      | nil => cases e
      | cons p t => exact absurd (by rw [show p = _ from e]) (hr _ t)
    · rfl

/-! ### Lists of declarations -/

theorem declared_total (any : Bool) {s : List Prim} (hp : Plain s) (n : List Nat) : ∃ d, Declared any n s d := by
  obtain ⟨w1, t, rfl, hw1, hn1⟩ := split_ws s
  by_cases hc : ∃ t', t = .tok .colon :: t'
  · obtain ⟨t', rfl⟩ := hc
    obtain ⟨w2, u, rfl, hw2, hn2⟩ := split_ws t'
    have hs4 : u <:+ w1 ++ .tok .colon :: (w2 ++ u) :=
      (suffix_left _ _).trans ((List.suffix_cons _ _).trans (suffix_left _ _))
    obtain ⟨vs, hv⟩ := values_total any _ rfl (hp.suffix hs4)
    have : ∃ v b, Trimmed vs v b := by
      by_cases hq : ∃ u w2 w3 n, Blank w2 ∧ Blank w3 ∧ Important n ∧ vs = u ++ .tok (.delim 0x21) :: w2 ++ .tok (.ident n) :: w3
      · obtain ⟨u, w2, w3, n, h1, h2, h3, h4⟩ := hq
        obtain ⟨w, h6, h7, h8⟩ := dropTrailing_spec u
        refine ⟨dropTrailing u, true, ?_⟩
        have := Trimmed.important h7 h1 h2 h3 h8
        rw [← h6, ← h4] at this
        exact this
      · obtain ⟨w, h6, h7, h8⟩ := dropTrailing_spec vs
        refine ⟨dropTrailing vs, false, ?_⟩
        have := Trimmed.plain h7 h8 (by rw [← h6]; exact hq)
        rw [← h6] at this
        exact this
    obtain ⟨v, b, ht⟩ := this
    have := Declared.decl (n := n) hw1 hw2 hn2 hv ht
    rw [List.append_assoc, List.cons_append] at this
    exact ⟨_, this⟩
  · exact ⟨_, .none hw1 hn1 (fun r e => hc ⟨r, e⟩)⟩

theorem decls_other {f : Nat} {v : List Prim} {i : Nat} {p : Prim} (hc : cur v i = p) (h1 : p ≠ .tok .whitespace)
    (h2 : p ≠ .tok .semicolon) (h3 : p ≠ .tok .eof) (h4 : ∀ n, p ≠ .tok (.atKeyword n)) (h5 : ∀ n, p ≠ .tok (.ident n)) :
    declsLoop (f + 1) v i = match untilLoop f true v i with
      | .stop (_, j) => declsLoop f v j
      | .ub => .ub
      | .more => .more := by
  rw [declsLoop.eq_def]; dsimp only
  rw [hc]
  split
  · exact absurd rfl h1
  · exact absurd rfl h2
  · exact absurd rfl h3
  · exact absurd rfl (h4 _)
  · exact absurd rfl (h5 _)
  · rfl

theorem run_decls {s : List Prim} (hp : Plain s) : ∀ (n : Nat) {rest : List Prim} {k f : Nat}, rest.length = n → At s rest k →
    2 * rest.length + 3 ≤ f →
    (¬ Stuck true rest ∧ ∃ ds, Decls true rest ds ∧ declsLoop f (stream s) (pos s rest k) = .stop ds) ∨
    (Stuck true rest ∧ declsLoop f (stream s) (pos s rest k) = .ub) := by
  intro n
  induction n using Nat.strongRecOn with
  | _ n ih =>
    intro rest k f hn ha hf
    obtain ⟨f, rfl⟩ : ∃ g, f = g + 1 := ⟨f - 1, by omega⟩
    cases rest with
    | nil => exact .inl ⟨(fun h => by cases h), _, .nil, (by rw [declsLoop.eq_def]; dsimp only; rw [cur_nil])⟩
    | cons p t =>
      obtain rfl := ha.zero (by simp)
      simp only [List.length_cons] at hn hf
      have hpt : Plain (p :: t) := hp.suffix ha.1
      by_cases h1 : p = .tok .whitespace ∨ p = .tok .semicolon
      · have := ih _ (by omega) rfl ⟨(List.suffix_cons _ _).trans ha.1, by simp⟩ (f := f) (k := 0) (by omega)
        have he : declsLoop (f + 1) (stream s) (pos s (p :: t) 0) = declsLoop f (stream s) (pos s t 0) := by
          rw [declsLoop.eq_def]; dsimp only; rw [cur_cons ha.1, pos_cons ha.1]
          rcases h1 with rfl | rfl <;> rfl
        rw [he]
        rcases this with ⟨h2, ds, h3, h4⟩ | ⟨h2, h3⟩
        · refine .inl ⟨fun h => ?_, ds, .skip h1 h3, h4⟩
          cases h with
          | skip _ h => exact h2 h
          | «at» => rcases h1 with h1 | h1 <;> cases h1
          | decl => rcases h1 with h1 | h1 <;> cases h1
          | declNext => rcases h1 with h1 | h1 <;> cases h1
          | junk a b => rcases h1 with h1 | h1 <;> contradiction
          | junkNext a b => rcases h1 with h1 | h1 <;> contradiction
        · exact .inr ⟨.skip h1 h2, h3⟩
      by_cases h2 : ∃ n, p = .tok (.atKeyword n)
      · obtain ⟨n, rfl⟩ := h2
        obtain ⟨x, r, o, hr⟩ := ruleAt_total true hpt
        obtain ⟨y, rfl, hy⟩ := run_consumeAt hp ha.1 hr (f := f) (by omega)
        obtain ⟨hl, hl'⟩ := ruleAt_left hr
        have hl' := hl' (by simp)
        have := ih r.length (by simp only [List.length_cons] at hl'; omega) rfl (ha.left hl) (f := f) (by simp only [List.length_cons] at hl'; omega)
        rw [Nat.zero_add] at this
        have he : declsLoop (f + 1) (stream s) (pos s (.tok (.atKeyword n) :: t) 0) = match declsLoop f (stream s) (pos s r o) with
            | .stop xs => .stop (.inl y :: xs)
            | .ub => .ub
            | .more => .more := by
          rw [declsLoop.eq_def]; dsimp only; rw [cur_cons ha.1]; dsimp only; rw [hy]; dsimp only
          cases declsLoop f (stream s) (pos s r o) <;> rfl
        rw [he]
        rcases this with ⟨h2, ds, h3, h4⟩ | ⟨h2, h3⟩
        · refine .inl ⟨fun h => ?_, _, .at hr h3, by rw [h4]⟩
          cases h with
          | skip h => rcases h with h | h <;> cases h
          | «at» h h' => obtain ⟨-, rfl, -⟩ := ruleAt_det hr h; exact h2 h'
          | junk _ _ h => exact absurd rfl (h _)
          | junkNext _ _ h => exact absurd rfl (h _)
        · exact .inr ⟨.at hr h2, by rw [h3]⟩
      by_cases h3 : ∃ n, p = .tok (.ident n)
      · obtain ⟨n, rfl⟩ := h3
        have hst : t <:+ s := (List.suffix_cons _ _).trans ha.1
        obtain ⟨vs, r, o, hu⟩ := until_total true true _ rfl (hp.suffix hst)
        obtain ⟨hl, hl'⟩ := until_left hu
        have hru := run_until hp _ rfl (k := 0) ⟨hst, by simp⟩ hu (f := f) (by omega)
        rw [Nat.zero_add] at hru
        by_cases ho : o = 0
        · subst ho
          rw [if_pos rfl] at hru
          have hpv : Plain (.tok (.ident n) :: vs) := by
            intro q hq
            rcases List.mem_cons.mp hq with rfl | hq
            · exact ⟨by simp, by simp⟩
            · exact until_plain hu q hq
          have hcd := consumeDecl_spec hpv (List.suffix_refl _) (f := f) (by omega)
          rw [pos_start] at hcd
          have hnext := ih r.length (by omega) rfl (At.left (k := 0) (o := 0) ⟨hst, by simp⟩ hl) (f := f) (by omega)
          rw [Nat.zero_add] at hnext
          have hd : ∀ d, consumeDecl f (stream (.tok (.ident n) :: vs)) 0 = .stop d →
              declsLoop (f + 1) (stream s) (pos s (.tok (.ident n) :: t) 0) = match declsLoop f (stream s) (pos s r 0) with
                | .stop xs => .stop ((d.map Sum.inr).toList ++ xs)
                | .ub => .ub
                | .more => .more := by
            intro d hd
            rw [declsLoop.eq_def]; dsimp only; rw [cur_cons ha.1]; dsimp only; rw [pos_cons ha.1, hru]; dsimp only; rw [hd]; dsimp only
            cases declsLoop f (stream s) (pos s r 0) <;> rfl
          rcases hcd with ⟨h4, d, h5, h6⟩ | ⟨h4, h5⟩
          · rw [hd d h6]
            rcases hnext with ⟨h7, ds, h8, h9⟩ | ⟨h7, h8⟩
            · refine .inl ⟨fun h => ?_, _, .decl hu h5 h8, by rw [h9]⟩
              cases h with
              | skip h => rcases h with h | h <;> cases h
              | decl h h' =>
                obtain ⟨rfl, rfl, rfl⟩ := until_det hu h
                rcases h' with h' | h'
                · omega
                · exact h4 h'
              | declNext h h' => obtain ⟨rfl, rfl, rfl⟩ := until_det hu h; exact h7 h'
              | junk _ _ _ h => exact absurd rfl (h _)
              | junkNext _ _ _ h => exact absurd rfl (h _)
            · exact .inr ⟨.declNext hu h7, by rw [h8]⟩
          · refine .inr ⟨.decl hu (.inr h4), ?_⟩
            rw [declsLoop.eq_def]; dsimp only; rw [cur_cons ha.1]; dsimp only; rw [pos_cons ha.1, hru]; dsimp only; rw [h5]
        · rw [if_neg ho] at hru
          refine .inr ⟨.decl hu (.inl (by omega)), ?_⟩
          rw [declsLoop.eq_def]; dsimp only; rw [cur_cons ha.1]; dsimp only; rw [pos_cons ha.1, hru]
      have hw : p ≠ .tok .whitespace := fun e => h1 (.inl e)
      have hsc : p ≠ .tok .semicolon := fun e => h1 (.inr e)
      have hat : ∀ n, p ≠ .tok (.atKeyword n) := fun n e => h2 ⟨n, e⟩
      have hid : ∀ n, p ≠ .tok (.ident n) := fun n e => h3 ⟨n, e⟩
      obtain ⟨vs, r, o, hu⟩ := until_total true true _ rfl hpt
      obtain ⟨hl, hl'⟩ := until_left hu
      have hru := run_until hp _ rfl ha hu (f := f) (by simp only [List.length_cons]; omega)
      rw [Nat.zero_add] at hru
      rw [decls_other (cur_cons ha.1) hw hsc (hpt p (by simp)).1 hat hid, hru]
      by_cases ho : o = 0
      · subst ho
        rw [if_pos rfl]; dsimp only
        have hvs := until_some hsc hu
        have hnext := ih r.length (by simp only [List.length_cons] at hl'; omega) rfl (At.left (o := 0) ha hl) (f := f)
          (by simp only [List.length_cons] at hl'; omega)
        rw [Nat.zero_add] at hnext
        rcases hnext with ⟨h7, ds, h8, h9⟩ | ⟨h7, h8⟩
        · refine .inl ⟨fun h => ?_, _, .junk hw hsc hat hid hu h8, h9⟩
          cases h with
          | skip h => exact h1 h
          | «at» => exact absurd rfl (hat _)
          | decl => exact absurd rfl (hid _)
          | declNext => exact absurd rfl (hid _)
          | junk _ _ _ _ h h' => obtain ⟨-, -, rfl⟩ := until_det hu h; omega
          | junkNext _ _ _ _ h h' => obtain ⟨-, rfl, -⟩ := until_det hu h; exact h7 h'
        · exact .inr ⟨.junkNext hw hsc hat hid hu h7, h8⟩
      · rw [if_neg ho]
        exact .inr ⟨.junk hw hsc hat hid hu (by omega), rfl⟩

end Verif.Proof.CssParse
