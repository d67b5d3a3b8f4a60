import Verif.Proof.CssParseDecl
namespace Verif.Proof.CssParse
open Verif.Model.Infra Verif.Model.Coder Verif.Model.CssTok Verif.Model.CssParse Verif.Spec.CssParse

theorem _root_.Verif.Spec.CssParse.AllTok.suffix {s r : List Prim} (h : AllTok s) (hr : r <:+ s) : AllTok r := fun p hp => h p (hr.subset hp)

/-! ### Results are trees -/

theorem tree (any : Bool) (n : Nat) :
    (∀ s x r o, s.length = n → AllTok s → Value any s x r o → Tree any x ∧ ∀ u, x = .tok u → s.head? = some (.tok u)) ∧
    (∀ E s vs r o, s.length = n → AllTok s → Items any E s vs r o → ∀ x ∈ vs, Tree any x ∧ ∀ u, x = .tok u → ¬ E u) := by
  induction n using Nat.strongRecOn with
  | _ n ih =>
    have hV : ∀ s x r o, s.length = n → AllTok s → Value any s x r o → Tree any x ∧ ∀ u, x = .tok u → s.head? = some (.tok u) := by
      intro s x r o hn ha h
      cases h with
      | token h => exact ⟨.tok h, fun u e => by rw [e]; rfl⟩
      | givenFn => obtain ⟨t, h⟩ := ha _ (List.mem_cons_self ..); cases h
      | givenBlock => obtain ⟨t, h⟩ := ha _ (List.mem_cons_self ..); cases h
      | block hp h =>
        have := (ih _ (by simp only [List.length_cons] at hn; omega)).2 _ _ _ _ _ rfl (ha.suffix (List.suffix_cons _ _)) h
        exact ⟨.block hp (fun x hx => (this x hx).1) (fun x hx => (this x hx).2), fun u e => by cases e⟩
      | fn h =>
        have := (ih _ (by simp only [List.length_cons] at hn; omega)).2 _ _ _ _ _ rfl (ha.suffix (List.suffix_cons _ _)) h
        exact ⟨.fn (fun x hx => (this x hx).1) (fun x hx e => (this x hx).2 _ e rfl), fun u e => by cases e⟩
    refine ⟨hV, ?_⟩
    intro E s vs r o hn ha h x hx
    cases h with
    | eof => simp at hx
    | close => simp at hx
    | cons hp h1 h2 =>
      obtain ⟨h3, h4⟩ := value_left h1
      rcases List.mem_cons.mp hx with rfl | hx
      · obtain ⟨h5, h6⟩ := hV _ _ _ _ hn ha h1
        refine ⟨h5, fun u e => hp u ?_⟩
        have := h6 u e
        simpa using this
      · exact (ih _ (by omega)).2 _ _ _ _ _ rfl (ha.suffix h3.1) h2 x hx

theorem values_tree {any : Bool} {s vs : List Prim} (ha : AllTok s) (h : Values any s vs) : ∀ x ∈ vs, Tree any x := by
  induction h with
  | nil => simp
  | cons h1 _ ih =>
    intro x hx
    rcases List.mem_cons.mp hx with rfl | hx
    · exact ((tree any _).1 _ _ _ _ rfl ha h1).1
    · exact ih (ha.suffix (value_left h1).1.1) x hx

/-! ### Round trips -/

theorem open_of {t e : Token} {c : Nat} (h : Pair t c e) : openOf c = t ∧ closeOf c = e := by
  cases h <;> exact ⟨rfl, rfl⟩

/-- The first token of a component value. -/
theorem write_head {any : Bool} {x : Prim} (h : Tree any x) : ∃ t l, write x = t :: l ∧ (x = .tok t ∨ ¬ Closer t) := by
  cases h with
  | tok h => exact ⟨_, [], rfl, .inl rfl⟩
  | fn => exact ⟨_, _, rfl, .inr (by simp [Closer])⟩
  | block hp =>
    refine ⟨_, _, rfl, .inr ?_⟩
    rw [(open_of hp).1]
    cases hp <;> simp [Closer]

theorem items_write {any : Bool} {E : Token → Prop} {e : Token} (hE : ∀ t, E t → Closer t) (he : E e) {vs : List Prim}
    (ht : ∀ x ∈ vs, Tree any x) (hn : ∀ x ∈ vs, ∀ u, x = .tok u → ¬ E u)
    (hv : ∀ x ∈ vs, ∀ r, Value any ((write x).map Prim.tok ++ r) x r 0) (r : List Prim) :
    Items any E ((writeAll vs).map Prim.tok ++ .tok e :: r) vs r 0 := by
  induction vs with
  | nil => exact .close he
  | cons x vs ih =>
    obtain ⟨t, l, h1, h2⟩ := write_head (ht x (by simp))
    have h3 := hv x (by simp) ((writeAll vs).map Prim.tok ++ .tok e :: r)
    have h4 := ih (fun y hy => ht y (by simp [hy])) (fun y hy => hn y (by simp [hy])) (fun y hy => hv y (by simp [hy]))
    have h5 : (writeAll (x :: vs)).map Prim.tok ++ .tok e :: r = (write x).map Prim.tok ++ ((writeAll vs).map Prim.tok ++ .tok e :: r) := by
      rw [writeAll]; simp
    rw [h5]
    rw [h1] at h3 ⊢
    refine Items.cons (o := 0) (o' := 0) ?_ h3 h4
    intro u hu hE'
    injection hu with hu
    subst hu
    rcases h2 with h2 | h2
    · exact hn x (by simp) t h2 hE'
    · exact h2 (hE t hE')

theorem value_write {any : Bool} {x : Prim} (h : Tree any x) : ∀ r, Value any ((write x).map Prim.tok ++ r) x r 0 := by
  induction h with
  | tok h => intro r; exact .token h
  | @fn n vs h1 h2 ih =>
    intro r
    have := items_write (any := any) (E := (· = .closeParen)) (e := .closeParen) (by rintro t rfl; exact .inr (.inr rfl)) rfl h1
      (fun x hx u e h => h2 x hx (by rw [e, h])) ih r
    rw [write]
    simpa using Value.fn this
  | @block t e c vs hp h1 h2 ih =>
    intro r
    have := items_write (any := any) (E := EndsBlock any e) (e := e)
      (by
        rintro t (rfl | ⟨-, h⟩)
        · exact closer_pair hp
        · exact h) (.inl rfl) h1 h2 ih r
    rw [write, (open_of hp).1, (open_of hp).2]
    simpa using Value.block hp this

theorem values_write {any : Bool} {vs : List Prim} (h : ∀ x ∈ vs, Tree any x) : Values any ((writeAll vs).map Prim.tok) vs := by
  induction vs with
  | nil => exact .nil
  | cons x vs ih =>
    have := Values.cons (value_write (h x (by simp)) _) (ih fun y hy => h y (by simp [hy]))
    rw [writeAll, List.map_append]
    exact this

theorem tree_tokens {any : Bool} {x : Prim} (h : Tree any x) : ∀ t ∈ write x, t ≠ .eof := by
  have key : ∀ vs : List Prim, (∀ x ∈ vs, ∀ t ∈ write x, t ≠ .eof) → ∀ t ∈ writeAll vs, t ≠ .eof := by
    intro vs
    induction vs with
    | nil => intro _ t ht; rw [writeAll] at ht; simp at ht
    | cons x vs ih =>
      intro h t ht
      rw [writeAll] at ht
      rcases List.mem_append.mp ht with ht | ht
      · exact h x (by simp) t ht
      · exact ih (fun y hy => h y (by simp [hy])) t ht
  induction h with
  | tok h =>
    intro t ht
    rw [write, List.mem_singleton] at ht
    subst ht; exact h.2.2.2.2
  | fn _ _ ih =>
    intro t ht
    rw [write] at ht
    simp only [List.cons_append, List.mem_cons, List.mem_append, List.not_mem_nil, or_false] at ht
    rcases ht with rfl | ht | rfl
    · simp
    · exact key _ ih t ht
    · simp
  | block hp _ _ ih =>
    intro t ht
    rw [write, (open_of hp).1, (open_of hp).2] at ht
    simp only [List.cons_append, List.mem_cons, List.mem_append, List.not_mem_nil, or_false] at ht
    rcases ht with rfl | ht | rfl
    · cases hp <;> simp
    · exact key _ ih t ht
    · cases hp <;> simp

theorem write_plain {any : Bool} {vs : List Prim} (h : ∀ x ∈ vs, Tree any x) : Plain ((writeAll vs).map Prim.tok) := by
  induction vs with
  | nil => rw [writeAll]; simp [Plain]
  | cons x vs ih =>
    intro p hp
    rw [writeAll, List.map_append] at hp
    rcases List.mem_append.mp hp with hp | hp
    · obtain ⟨t, ht, rfl⟩ := List.mem_map.mp hp
      exact ⟨fun e => by injection e with e; exact tree_tokens (h x (by simp)) t ht e, by simp⟩
    · exact ih (fun y hy => h y (by simp [hy])) p hp

/-! ### Nothing is lost -/

theorem alike_closer {t : Token} (h : Closer t) : alike t = .closeParen := by
  rcases h with rfl | rfl | rfl <;> rfl

theorem writeAll_append (a b : List Prim) : writeAll (a ++ b) = writeAll a ++ writeAll b := by
  induction a with
  | nil => rfl
  | cons x a ih => rw [List.cons_append, writeAll, writeAll, ih, List.append_assoc]

theorem kept (any : Bool) (n : Nat) :
    (∀ s x r o, s.length = n → Value any s x r o →
      (write x ++ writeAll r).map alike = (writeAll s).map alike ++ List.replicate o .closeParen) ∧
    (∀ (E : Token → Prop) s vs r o, s.length = n → (∀ t, E t → Closer t) → Items any E s vs r o →
      (writeAll vs).map alike ++ Token.closeParen :: (writeAll r).map alike = (writeAll s).map alike ++ List.replicate o .closeParen) := by
  induction n using Nat.strongRecOn with
  | _ n ih =>
    have hV : ∀ s x r o, s.length = n → Value any s x r o →
        (write x ++ writeAll r).map alike = (writeAll s).map alike ++ List.replicate o .closeParen := by
      intro s x r o hn h
      cases h with
      | token => rw [writeAll]; simp
      | givenFn => rw [writeAll]; simp
      | givenBlock => rw [writeAll]; simp
      | @block t e c _ s' vs _ hp h =>
        have := (ih _ (by simp only [List.length_cons] at hn; omega)).2 _ _ _ _ _ rfl
          (by
            rintro t (rfl | ⟨-, h⟩)
            · exact closer_pair hp
            · exact h) h
        rw [write, writeAll, write, (open_of hp).1, (open_of hp).2]
        simp only [List.map_append, List.map_cons, List.map_nil, List.cons_append, List.nil_append, List.append_assoc,
          alike_closer (closer_pair hp)]
        rw [this]
      | @fn n' _ s' vs _ h =>
        have := (ih _ (by simp only [List.length_cons] at hn; omega)).2 _ _ _ _ _ rfl (by rintro t rfl; exact .inr (.inr rfl)) h
        rw [write, writeAll, write]
        simp only [List.map_append, List.map_cons, List.map_nil, List.cons_append, List.nil_append, List.append_assoc]
        rw [show alike Token.closeParen = .closeParen from rfl, this]
    refine ⟨hV, ?_⟩
    intro E s vs r o hn hE h
    cases h with
    | eof => rfl
    | close h =>
      rw [writeAll, writeAll, write]
      simp [alike_closer (hE _ h)]
    | cons _ h1 h2 =>
      obtain ⟨-, h4⟩ := value_left h1
      have h5 := hV _ _ _ _ hn h1
      have h6 := (ih _ (by omega)).2 _ _ _ _ _ rfl hE h2
      rw [writeAll.eq_2, List.map_append, List.append_assoc, h6, ← List.append_assoc, ← List.map_append, h5, List.append_assoc,
        List.replicate_append_replicate]

theorem values_kept {any : Bool} {s vs : List Prim} (h : Values any s vs) :
    ∃ o, (writeAll vs).map alike = (writeAll s).map alike ++ List.replicate o .closeParen := by
  induction h with
  | nil => exact ⟨0, rfl⟩
  | @cons s r vs x o h _ ih =>
    obtain ⟨o', ih⟩ := ih
    refine ⟨o + o', ?_⟩
    have h5 := (kept any _).1 _ _ _ _ rfl h
    rw [writeAll.eq_2, List.map_append, ih, ← List.append_assoc, ← List.map_append, h5, List.append_assoc, List.replicate_append_replicate]

/-! ### Brackets that nest -/

theorem lift (n : Nat) :
    (∀ s x r o, s.length = n → Value false s x r o → Tree true x → Value true s x r o) ∧
    (∀ (E E' : Token → Prop) s vs r o, s.length = n → (∀ t, E t → E' t) → Items false E s vs r o → (∀ x ∈ vs, Tree true x) →
      (∀ x ∈ vs, ∀ u, x = .tok u → ¬ E' u) → (∀ t, E' t → Closer t) → Items true E' s vs r o) := by
  induction n using Nat.strongRecOn with
  | _ n ih =>
    have hV : ∀ s x r o, s.length = n → Value false s x r o → Tree true x → Value true s x r o := by
      intro s x r o hn h ht
      cases h with
      | token h => exact .token h
      | givenFn => exact .givenFn
      | givenBlock => exact .givenBlock
      | @block t e c _ s' vs _ hp h =>
        cases ht with
        | @block t' e' _ _ hp' h1 h2 =>
          have : e = e' := by cases hp <;> cases hp' <;> rfl
          subst this
          refine .block hp ?_
          refine (ih _ (by simp only [List.length_cons] at hn; omega)).2 _ _ _ _ _ _ rfl ?_ h h1 h2 ?_
          · rintro t (h | ⟨h, -⟩)
            · exact .inl h
            · cases h
          · rintro t (rfl | ⟨-, h⟩)
            · exact closer_pair hp
            · exact h
      | fn h =>
        cases ht with
        | fn h1 h2 =>
          refine .fn ?_
          refine (ih _ (by simp only [List.length_cons] at hn; omega)).2 _ _ _ _ _ _ rfl (fun t h => h) h h1 ?_ ?_
          · intro x hx u e h; exact h2 x hx (by rw [e, h])
          · rintro t rfl; exact .inr (.inr rfl)
    refine ⟨hV, ?_⟩
    intro E E' s vs r o hn hEE h ht hx hc
    cases h with
    | eof => exact .eof
    | close h => exact .close (hEE _ h)
    | @cons _ p x s' r' _ vs o1 o2 hp h1 h2 =>
      obtain ⟨-, h4⟩ := value_left h1
      have h5 := hV _ _ _ _ hn h1 (ht x (by simp))
      refine .cons ?_ h5 ((ih _ (by omega)).2 _ _ _ _ _ _ rfl hEE h2 (fun y hy => ht y (by simp [hy])) (fun y hy => hx y (by simp [hy])) hc)
      rintro t rfl hE'
      cases h1 with
      | token => exact hx _ (by simp) t rfl hE'
      | block hp' =>
        rcases hc _ hE' with rfl | rfl | rfl <;> cases hp'
      | fn => rcases hc _ hE' with h | h | h <;> cases h

theorem matched_value {s r : List Prim} {x : Prim} {o : Nat} (hm : Matched s) (h : Value false s x r o) : Value true s x r o ∧ Matched r := by
  obtain ⟨vs, h1, h2⟩ := hm
  cases h1 with
  | nil => cases h
  | cons h3 h4 =>
    obtain ⟨rfl, rfl, rfl⟩ := value_det h h3
    exact ⟨(lift _).1 _ _ _ _ rfl h (h2 _ (by simp)), _, h4, fun y hy => h2 y (by simp [hy])⟩

theorem matched_tok {s : List Prim} {t : Token} (hm : Matched (.tok t :: s)) (ht : Preserved t) : Matched s :=
  (matched_value hm (.token ht)).2

theorem matched_values {s vs : List Prim} (hm : Matched s) (h : Values false s vs) : Values true s vs := by
  induction h with
  | nil => exact .nil
  | cons h _ ih => exact .cons (matched_value hm h).1 (ih (matched_value hm h).2)

theorem matched_prelude {semi : Bool} {s vs r : List Prim} {b : Option Prim} {o : Nat} (hm : Matched s) (h : Prelude false semi s vs b r o) :
    Prelude true semi s vs b r o ∧ Matched r := by
  induction h with
  | eof => exact ⟨.eof, hm⟩
  | semi hs => exact ⟨.semi hs, matched_tok hm (by simp [Preserved])⟩
  | curly h =>
    obtain ⟨h1, h2⟩ := matched_value hm (.block .curly h)
    refine ⟨?_, h2⟩
    cases h1 with
    | block hp h => cases hp; exact .curly h
  | given => exact ⟨.given, (matched_value hm .givenBlock).2⟩
  | cons h1 h2 h3 h4 _ ih =>
    obtain ⟨h5, h6⟩ := matched_value hm h4
    obtain ⟨h7, h8⟩ := ih h6
    exact ⟨.cons h1 h2 h3 h5 h7, h8⟩

theorem matched_ruleAt {s r : List Prim} {x : Option Rule} {o : Nat} (hm : Matched s) (h : RuleAt false s x r o) :
    RuleAt true s x r o ∧ Matched r := by
  cases h with
  | «at» h =>
    obtain ⟨h1, h2⟩ := matched_prelude (matched_tok hm (by simp [Preserved])) h
    exact ⟨.at h1, h2⟩
  | qualified hn h =>
    obtain ⟨h1, h2⟩ := matched_prelude hm h
    exact ⟨.qualified hn h1, h2⟩
  | lost hn h =>
    obtain ⟨h1, h2⟩ := matched_prelude hm h
    exact ⟨.lost hn h1, h2⟩

theorem matched_rules {top : Bool} {s : List Prim} {rs : List Rule} (hm : Matched s) (h : Rules false top s rs) : Rules true top s rs := by
  induction h with
  | nil => exact .nil
  | skip hb _ ih =>
    refine .skip hb (ih ?_)
    rcases hb with rfl | ⟨-, rfl | rfl⟩ <;> exact matched_tok hm (by simp [Preserved])
  | rule hb h _ ih =>
    obtain ⟨h1, h2⟩ := matched_ruleAt hm h
    exact .rule hb h1 (ih h2)

theorem matched_until {semi : Bool} {s vs r : List Prim} {o : Nat} (hm : Matched s) (h : Until false semi s vs r o) :
    Until true semi s vs r o ∧ Matched r := by
  induction h with
  | eof => exact ⟨.eof, hm⟩
  | semi hs => exact ⟨.semi hs, hm⟩
  | cons h1 h4 _ ih =>
    obtain ⟨h5, h6⟩ := matched_value hm h4
    obtain ⟨h7, h8⟩ := ih h6
    exact ⟨.cons h1 h5 h7, h8⟩

theorem matched_blank {w s : List Prim} (hw : Blank w) (hm : Matched (w ++ s)) : Matched s := by
  induction w with
  | nil => exact hm
  | cons p w ih =>
    obtain rfl := hw p (by simp)
    exact ih (fun q hq => hw q (by simp [hq])) (matched_tok hm (by simp [Preserved]))

theorem matched_declared {n : List Nat} {s : List Prim} {d : Option Decl} (hm : Matched s) (h : Declared false n s d) : Declared true n s d := by
  cases h with
  | decl h1 h2 h3 h4 h5 =>
    refine .decl h1 h2 h3 (matched_values ?_ h4) h5
    rw [List.append_assoc] at hm
    exact matched_blank h2 (matched_tok (matched_blank h1 hm) (by simp [Preserved]))
  | none h1 h2 h3 => exact .none h1 h2 h3

theorem matched_faulty {s : List Prim} (hm : Matched s) (h : Faulty false s) : Faulty true s := by
  obtain ⟨w1, w2, t, vs, o, rfl, h1, h2, h3, h4, h5⟩ := h
  refine ⟨w1, w2, t, vs, o, rfl, h1, h2, h3, (matched_until ?_ h4).1, h5⟩
  rw [List.append_assoc] at hm
  exact matched_blank h2 (matched_tok (matched_blank h1 hm) (by simp [Preserved]))

/-- The values of a list with brackets that nest are such a list. -/
theorem matched_vs {any semi : Bool} {s vs r : List Prim} {o : Nat} (h : Until any semi s vs r o) : Values false vs vs ∧ Values true vs vs := by
  have key : ∀ {any a : Bool} {s r : List Prim} {x : Prim} {o : Nat}, Value any s x r o → ∀ t, Value a (x :: t) x t 0 := by
    intro any a s r x o h t
    cases h with
    | token h => exact .token h
    | givenFn => exact .givenFn
    | givenBlock => exact .givenBlock
    | block => exact .givenBlock
    | fn => exact .givenFn
  induction h with
  | eof => exact ⟨.nil, .nil⟩
  | semi => exact ⟨.nil, .nil⟩
  | cons _ h1 _ ih => exact ⟨.cons (key h1 _) ih.1, .cons (key h1 _) ih.2⟩

theorem same_values {any semi : Bool} {s vs r : List Prim} {o : Nat} (h : Until any semi s vs r o) {t : List Prim} (ht : t <:+ vs) :
    Values false t t ∧ Values true t t := by
  obtain ⟨u, rfl⟩ := ht
  have := matched_vs h
  clear h
  induction u with
  | nil => exact this
  | cons x u ih =>
    obtain ⟨h1, h2⟩ := this
    refine ih ⟨?_, ?_⟩
    · rw [List.cons_append] at h1
      generalize hg : u ++ t = l at *
      cases h1 with
      | cons h h' => cases h <;> exact h'
    · rw [List.cons_append] at h2
      generalize hg : u ++ t = l at *
      cases h2 with
      | cons h h' => cases h <;> exact h'

/-- Within the values of a declaration both rules say the same. -/
theorem same_declared {any semi : Bool} {s vs r : List Prim} {o : Nat} (hu : Until any semi s vs r o) {n : List Nat} {d : Option Decl}
    (h : Declared false n vs d) : Declared true n vs d := by
  cases h with
  | @decl w1 w2 t xs v b h1 h2 h3 h4 h5 =>
    obtain ⟨h6, h7⟩ := same_values hu (suffix_left (w1 ++ .tok .colon :: w2) t)
    obtain rfl := values_det h4 h6
    exact .decl h1 h2 h3 h7 h5
  | none h1 h2 h3 => exact .none h1 h2 h3

theorem matched_decls {s : List Prim} {ds : List (Rule ⊕ Decl)} (hm : Matched s) (h : Decls false s ds) : Decls true s ds := by
  induction h with
  | nil => exact .nil
  | skip hb _ ih =>
    refine .skip hb (ih ?_)
    rcases hb with rfl | rfl <;> exact matched_tok hm (by simp [Preserved])
  | «at» h _ ih =>
    obtain ⟨h1, h2⟩ := matched_ruleAt hm h
    exact .at h1 (ih h2)
  | decl h1 h2 _ ih =>
    obtain ⟨h3, h4⟩ := matched_until (matched_tok hm (by simp [Preserved])) h1
    exact .decl h3 (same_declared h1 h2) (ih h4)
  | junk a b c d h1 _ ih =>
    obtain ⟨h3, h4⟩ := matched_until hm h1
    exact .junk a b c d h3 (ih h4)

/-! ### `<!--` and `-->` -/

theorem rules_noStray {any : Bool} {s : List Prim} {rs : List Rule} (h : Rules any true s rs) (hs : ¬ Stray any s) : Rules any false s rs := by
  induction h with
  | nil => exact .nil
  | skip hb _ ih =>
    rcases hb with rfl | ⟨-, hb⟩
    · exact .skip (.inl rfl) (ih fun h => hs (.skip h))
    · exact absurd (.here hb) hs
  | rule hb h _ ih =>
    refine .rule ?_ h (ih fun h' => hs (.next (fun e => hb (.inl e)) h h'))
    rintro (h | ⟨h, -⟩)
    · exact hb (.inl h)
    · cases h

theorem trimmed_det {v u u' : List Prim} {b b' : Bool} (h : Trimmed v u b) (h' : Trimmed v u' b') : u = u' ∧ b = b' := by
  have hn : ∀ (c : Token) (l : List Prim), c ≠ .whitespace → ¬ WsHead (.tok c :: l) := by
    rintro c l hc ⟨r, e⟩; injection e with e; injection e with e; exact hc e
  have key : ∀ {v1 v1' a1 a2 a3 b1 b2 b3 : List Prim} {n m : List Nat}, Blank a1 → Blank a2 → Blank a3 → Blank b1 → Blank b2 → Blank b3 →
      ¬ WsHead v1.reverse → ¬ WsHead v1'.reverse →
      v1 ++ a1 ++ .tok (.delim 0x21) :: a2 ++ .tok (.ident n) :: a3 = v1' ++ b1 ++ .tok (.delim 0x21) :: b2 ++ .tok (.ident m) :: b3 →
      v1 = v1' := by
    intro v1 v1' a1 a2 a3 b1 b2 b3 n m ha1 ha2 ha3 hb1 hb2 hb3 h1 h2 h
    have h := congrArg List.reverse h
    simp only [List.reverse_append, List.reverse_cons, List.append_assoc, List.singleton_append, List.nil_append, List.cons_append,
      List.reverse_nil] at h
    have h3 := (ws_unique h (blank_reverse.mpr ha3) (blank_reverse.mpr hb3) (hn _ _ (by simp)) (hn _ _ (by simp))).2
    injection h3 with _ h3
    have h4 := (ws_unique h3 (blank_reverse.mpr ha2) (blank_reverse.mpr hb2) (hn _ _ (by simp)) (hn _ _ (by simp))).2
    injection h4 with _ h4
    have h5 := (ws_unique h4 (blank_reverse.mpr ha1) (blank_reverse.mpr hb1) h1 h2).2
    exact List.reverse_inj.mp h5
  generalize hv : v = v' at h'
  cases h with
  | important a1 a2 a3 a4 a5 =>
    cases h' with
    | important b1 b2 b3 b4 b5 => exact ⟨key a1 a2 a3 b1 b2 b3 a5 b5 hv, rfl⟩
    | plain b1 b2 b3 => exact absurd ⟨_, _, _, _, a2, a3, a4, hv.symm⟩ b3
  | plain a1 a2 a3 =>
    cases h' with
    | important b1 b2 b3 b4 b5 => exact absurd ⟨_, _, _, _, b2, b3, b4, hv⟩ a3
    | plain b1 b2 b3 =>
      have h := congrArg List.reverse hv
      rw [List.reverse_append, List.reverse_append] at h
      exact ⟨List.reverse_inj.mp (ws_unique h (blank_reverse.mpr a1) (blank_reverse.mpr b1) a2 b2).2, rfl⟩

theorem declared_det {any : Bool} {n : List Nat} {s : List Prim} {d d' : Option Decl} (h : Declared any n s d) (h' : Declared any n s d') :
    d = d' := by
  have hn : ∀ (l : List Prim), ¬ WsHead (.tok .colon :: l) := by rintro l ⟨r, e⟩; cases e
  generalize hs : s = s' at h'
  cases h with
  | decl a1 a2 a3 a4 a5 =>
    rw [List.append_assoc, List.cons_append] at hs
    cases h' with
    | decl b1 b2 b3 b4 b5 =>
      rw [List.append_assoc, List.cons_append] at hs
      have h1 := (ws_unique hs a1 b1 (hn _) (hn _)).2
      injection h1 with _ h1
      obtain ⟨rfl, rfl⟩ := ws_unique h1 a2 b2 a3 b3
      obtain rfl := values_det a4 b4
      obtain ⟨rfl, rfl⟩ := trimmed_det a5 b5
      rfl
    | none b1 b2 b3 =>
      have h1 := (ws_unique hs a1 b1 (hn _) b2).2
      exact absurd h1.symm (b3 _)
  | none a1 a2 a3 =>
    cases h' with
    | decl b1 b2 b3 b4 b5 =>
      rw [List.append_assoc, List.cons_append] at hs
      have h1 := (ws_unique hs a1 b1 a2 (hn _)).2
      exact absurd h1 (a3 _)
    | none => rfl

theorem decls_det {any : Bool} {s : List Prim} {ds ds' : List (Rule ⊕ Decl)} (h : Decls any s ds) (h' : Decls any s ds') : ds = ds' := by
  induction h generalizing ds' with
  | nil => cases h'; rfl
  | skip hb _ ih =>
    cases h' with
    | skip _ h => exact ih h
    | «at» => rcases hb with hb | hb <;> cases hb
    | decl => rcases hb with hb | hb <;> cases hb
    | junk a b => rcases hb with hb | hb <;> contradiction
  | «at» h1 _ ih =>
    cases h' with
    | skip hb => rcases hb with hb | hb <;> cases hb
    | «at» h2 h3 =>
      obtain ⟨e, rfl, rfl⟩ := ruleAt_det h1 h2
      injection e with e
      rw [e, ih h3]
    | junk _ _ a => exact absurd rfl (a _)
  | decl h1 h2 _ ih =>
    cases h' with
    | skip hb => rcases hb with hb | hb <;> cases hb
    | decl h3 h4 h5 =>
      obtain ⟨rfl, rfl, rfl⟩ := until_det h1 h3
      rw [declared_det h2 h4, ih h5]
    | junk _ _ _ a => exact absurd rfl (a _)
  | junk a b c d h1 _ ih =>
    cases h' with
    | skip hb => rcases hb with hb | hb <;> contradiction
    | «at» => exact absurd rfl (c _)
    | decl => exact absurd rfl (d _)
    | junk _ _ _ _ h2 h3 =>
      obtain ⟨rfl, rfl, rfl⟩ := until_det h1 h2
      exact ih h3

theorem decls_total (any : Bool) : ∀ (n : Nat) {s : List Prim}, s.length = n → Plain s → ∃ ds, Decls any s ds := by
  intro n
  induction n using Nat.strongRecOn with
  | _ n ih =>
    intro s hn hp
    cases s with
    | nil => exact ⟨_, .nil⟩
    | cons p t =>
      have hpt : Plain t := hp.suffix (List.suffix_cons _ _)
      simp only [List.length_cons] at hn
      by_cases h1 : p = .tok .whitespace ∨ p = .tok .semicolon
      · obtain ⟨ds, h⟩ := ih t.length (by omega) rfl hpt
        exact ⟨_, .skip h1 h⟩
      by_cases h2 : ∃ n, p = .tok (.atKeyword n)
      · obtain ⟨n, rfl⟩ := h2
        obtain ⟨x, r, o, hr⟩ := ruleAt_total any hp
        have hl := (ruleAt_left hr).2 (by simp)
        simp only [List.length_cons] at hl
        obtain ⟨ds, h⟩ := ih r.length (by omega) rfl (hp.suffix (ruleAt_left hr).1.1)
        cases x with
        | some x => exact ⟨_, .at hr h⟩
        | none =>
          cases hr with
          | lost a => exact absurd rfl (a _ _)
      by_cases h3 : ∃ n, p = .tok (.ident n)
      · obtain ⟨n, rfl⟩ := h3
        obtain ⟨vs, r, o, hu⟩ := until_total any true _ rfl hpt
        obtain ⟨hl, hl'⟩ := until_left hu
        obtain ⟨ds, h⟩ := ih r.length (by omega) rfl (hpt.suffix hl.1)
        obtain ⟨d, hd⟩ := declared_total any (until_plain hu) n
        exact ⟨_, .decl hu hd h⟩
      have hsc : p ≠ .tok .semicolon := fun e => h1 (.inr e)
      obtain ⟨vs, r, o, hu⟩ := until_total any true _ rfl hp
      obtain ⟨hl, hl'⟩ := until_left hu
      have hvs := until_some hsc hu
      simp only [List.length_cons] at hl'
      obtain ⟨ds, h⟩ := ih r.length (by omega) rfl (hp.suffix hl.1)
      exact ⟨_, .junk (fun e => h1 (.inl e)) hsc (fun n e => h2 ⟨n, e⟩) (fun n e => h3 ⟨n, e⟩) hu h⟩

end Verif.Proof.CssParse
