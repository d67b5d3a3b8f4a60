import Verif.Proof.HtmlTokSim
set_option linter.unnecessarySimpa false
/-
Steps of the model and of the standard: the states that need more than the row of the table.
-/
namespace Verif.Proof.HtmlTok
open Verif.Model.HtmlTok Verif.Model.HtmlInput Verif.Model.Infra
variable {σ : Type}

theorem comment_sim (S : Sink σ) (m : M σ) (c : Option Nat) (x : Spec.HtmlTok.C σ) (h : Sit m c x) (hs : m.st = .comment)
    (h0 : c ≠ some 0) : OutR S x c (onComment S m c) := by
  intro m2 b hr
  have hst : x.st = .comment := by rw [h.core.st, hs]; rfl
  obtain ⟨⟨h1, h2, h3, h4, h5, h6, h7, h8, h9, h10, h11, h12, h13, h14⟩, he, hh, hm⟩ := h
  have hx : ∀ n : Nat, n + 0 = n := fun _ => rfl
  have hy : ∀ n : Nat, n + 0 = n := fun _ => rfl
  unfold Spec.HtmlTok.plain
  rw [hst, hh]
  cases c with
  | none =>
    unfold onComment at hr
    dsimp only at hr
    tok_sim0
  | some c =>
    unfold onComment at hr
    dsimp only at hr
    split_ifs at hr
    · tok_sim1
    · tok_sim1
    · rename_i hc
      exact absurd (by rw [hc]) h0
    · tok_sim1

theorem close_cases {c : Nat} (h : (ws c || c == 0x2F || c == 0x3E) = true) :
    c = 0x9 ∨ c = 0xA ∨ c = 0xC ∨ c = 0x20 ∨ c = 0x2F ∨ c = 0x3E := by
  simpa [ws, or_assoc] using h

theorem scriptDblStart_sim (S : Sink σ) (m : M σ) (c : Option Nat) (x : Spec.HtmlTok.C σ) (h : Sit m c x) (hs : m.st = .scriptDblStart)
    (h0 : ∀ n, c = some n → closes (some n) = true → m.tmp = scriptStr) : OutR S x c (onScriptDblStart S m c) := by
  intro m2 b hr
  have hst : x.st = .scriptDblStart := by rw [h.core.st, hs]; rfl
  obtain ⟨⟨h1, h2, h3, h4, h5, h6, h7, h8, h9, h10, h11, h12, h13, h14⟩, he, hh, hm⟩ := h
  have hx : ∀ n : Nat, n + 0 = n := fun _ => rfl
  have hy : ∀ n : Nat, n + 0 = n := fun _ => rfl
  unfold Spec.HtmlTok.plain
  rw [hst, hh]
  cases c with
  | none =>
    unfold onScriptDblStart at hr
    dsimp only at hr
    tok_sim0
  | some c =>
    unfold onScriptDblStart at hr
    dsimp only at hr
    by_cases hc : (ws c || c == 0x2F || c == 0x3E) = true
    · have ht := h0 c rfl hc
      rw [if_pos hc, if_pos ht] at hr
      tok_result
      clear h0
      rcases close_cases hc with rfl | rfl | rfl | rfl | rfl | rfl <;> (clear hc; tok_lit; simp only [h3, ht]; simp only [← ht]; tok_fields)
    · rw [if_neg hc] at hr
      have hc' : (ws c || c == 0x2F || c == 0x3E) = false := by simpa using hc
      clear hc
      clear h0
      split_ifs at hr
      · tok_sim1
      · tok_sim1
      · tok_sim1

theorem scriptDblEnd_close (S : Sink σ) (m : M σ) (c : Nat) (x : Spec.HtmlTok.C σ) (st : St) (h : Core m x) (he : x.ended = false)
    (hm : Marks (cur m).attrs) (hst : st = .scriptEsc ∨ st = .scriptDbl) : Out (chr S c (go st m)) false (some c) x
      (Spec.HtmlTok.emit (envOf S) (.char c) { x with st := stOf st, rest := x.rest.tail }) := by
  obtain ⟨h1, h2, h3, h4, h5, h6, h7, h8, h9, h10, h11, h12, h13, h14⟩ := h
  have hs := hst
  have hx := hst
  have hy := hst
  clear h13 h14
  rcases hst with rfl | rfl <;> tok_fields

theorem scriptDblEnd_sim (S : Sink σ) (m : M σ) (c : Option Nat) (x : Spec.HtmlTok.C σ) (h : Sit m c x) (hs : m.st = .scriptDblEnd) :
    OutR S x c (onScriptDblEnd S m c) := by
  intro m2 b hr
  have hst : x.st = .scriptDblEnd := by rw [h.core.st, hs]; rfl
  obtain ⟨⟨h1, h2, h3, h4, h5, h6, h7, h8, h9, h10, h11, h12, h13, h14⟩, he, hh, hm⟩ := h
  have hx : ∀ n : Nat, n + 0 = n := fun _ => rfl
  have hy : ∀ n : Nat, n + 0 = n := fun _ => rfl
  unfold Spec.HtmlTok.plain
  rw [hst, hh]
  cases c with
  | none =>
    unfold onScriptDblEnd at hr
    dsimp only at hr
    tok_sim0
  | some c =>
    unfold onScriptDblEnd at hr
    dsimp only at hr
    by_cases hc : (ws c || c == 0x2F || c == 0x3E) = true
    · rw [if_pos hc] at hr
      have hm' : Marks (cur m).attrs := by simpa [MarksIn, hs] using hm
      by_cases ht : m.tmp = scriptStr
      · rw [if_pos ht] at hr
        tok_result
        have ho := scriptDblEnd_close S m c x .scriptEsc ⟨h1, h2, h3, h4, h5, h6, h7, h8, h9, h10, h11, h12, h13, h14⟩ he hm' (Or.inl rfl)
        have ht' : (m.tmp == scriptStr) = true := by simp [ht]
        clear h1 h2 h4 h5 h6 h7 h8 h9 h10 h11 h12 h13 h14 ht
        rcases close_cases hc with rfl | rfl | rfl | rfl | rfl | rfl <;> (clear hc; tok_lit; simp only [h3, ht']; rw [h3] at ho; exact ho)
      · rw [if_neg ht] at hr
        tok_result
        have ho := scriptDblEnd_close S m c x .scriptDbl ⟨h1, h2, h3, h4, h5, h6, h7, h8, h9, h10, h11, h12, h13, h14⟩ he hm' (Or.inr rfl)
        have ht' : (m.tmp == scriptStr) = false := by simpa using ht
        clear h1 h2 h4 h5 h6 h7 h8 h9 h10 h11 h12 h13 h14 ht
        rcases close_cases hc with rfl | rfl | rfl | rfl | rfl | rfl <;> (clear hc; tok_lit; simp only [h3, ht']; rw [h3] at ho; exact ho)
    · rw [if_neg hc] at hr
      have hc' : (ws c || c == 0x2F || c == 0x3E) = false := by simpa using hc
      clear hc
      split_ifs at hr
      · tok_sim1
      · tok_sim1
      · tok_sim1

theorem beforeAttrName_sim (S : Sink σ) (m : M σ) (c : Option Nat) (x : Spec.HtmlTok.C σ) (h : Sit m c x) (hs : m.st = .beforeAttrName) :
    OutR S x c (onBeforeAttrName m c) := by
  intro m2 b hr
  have hst : x.st = .beforeAttrName := by rw [h.core.st, hs]; rfl
  obtain ⟨⟨h1, h2, h3, h4, h5, h6, h7, h8, h9, h10, h11, h12, h13, h14⟩, he, hh, hm⟩ := h
  have hx : ∀ n : Nat, n + 0 = n := fun _ => rfl
  have hy : ∀ n : Nat, n + 0 = n := fun _ => rfl
  unfold Spec.HtmlTok.plain
  rw [hst, hh]
  cases c with
  | none =>
    unfold onBeforeAttrName at hr
    dsimp only at hr
    tok_sim0
  | some c =>
    unfold onBeforeAttrName at hr
    dsimp only at hr
    by_cases hw : ws c = true
    · rw [if_pos hw] at hr
      have hc := hw
      tok_result
      tok_done
    rw [if_neg hw] at hr
    by_cases h2f : c = 0x2F ∨ c = 0x3E
    · rw [if_pos h2f] at hr
      tok_result
      rcases h2f with hc | hc <;> tok_done
    rw [if_neg h2f] at hr
    by_cases h3d : c = 0x3D
    · rw [if_pos h3d] at hr
      cases hn : newAttr m with
      | none => simp [hn] at hr
      | some m1 =>
        rw [hn] at hr
        dsimp only at hr
        obtain ⟨hr2, rfl⟩ := doneO_some hr
        rw [Option.map_eq_some_iff] at hr2
        obtain ⟨m3, hr3, rfl⟩ := hr2
        obtain ⟨a, b, rfl, hx1⟩ := updTag_some hn
        obtain ⟨a', b', e, r, rfl, hy1, hx2⟩ := updAttr_some hr3
        have hz : tagBy m.kind a b = { cur m with attrs := ⟨[], [], false⟩ :: (cur m).attrs } := hx1
        have hz1 : (tagBy m.kind a b).attrs = e :: r := hy1
        rw [hz] at hz1
        dsimp only at hz1
        simp only [List.cons.injEq] at hz1
        obtain ⟨rfl, rfl⟩ := hz1
        have hx : tagBy m.kind a' b' = { cur m with attrs := ⟨[c], [], false⟩ :: (cur m).attrs } := by
          refine hx2.trans ?_
          have e1 : cur { m with startTag := a, endTag := b } = { cur m with attrs := ⟨[], [], false⟩ :: (cur m).attrs } := hz
          rw [e1]
        clear hr hr3 hn hx1 hx2 hy1 hz
        have hc := h3d
        clear hw h2f h3d
        tok_done
    rw [if_neg h3d] at hr
    have hc := h3d
    obtain ⟨m1, hr2, rfl, rfl⟩ := reO_some hr
    obtain ⟨a, b, rfl, hx⟩ := updTag_some hr2
    clear hr hr2
    have hc' : ¬ c = 0x2F ∧ ¬ c = 0x3E := by tauto
    clear h2f
    obtain ⟨hc1, hc2⟩ := hc'
    tok_done

theorem attrName_sim (S : Sink σ) (m : M σ) (c : Option Nat) (x : Spec.HtmlTok.C σ) (h : Sit m c x) (hs : m.st = .attrName) :
    OutR S x c (onAttrName m c) := by
  intro m2 b hr
  have hst : x.st = .attrName := by rw [h.core.st, hs]; rfl
  obtain ⟨⟨h1, h2, h3, h4, h5, h6, h7, h8, h9, h10, h11, h12, h13, h14⟩, he, hh, hm⟩ := h
  have hx : ∀ n : Nat, n + 0 = n := fun _ => rfl
  have hy : ∀ n : Nat, n + 0 = n := fun _ => rfl
  unfold Spec.HtmlTok.plain
  rw [hst, hh]
  cases c with
  | none =>
    unfold onAttrName at hr
    dsimp only at hr
    tok_sim0
  | some c =>
    unfold onAttrName at hr
    dsimp only at hr
    by_cases hw : ws c = true ∨ c = 0x2F ∨ c = 0x3E
    · rw [if_pos hw] at hr
      obtain ⟨m1, hr2, rfl, rfl⟩ := reO_some hr
      obtain ⟨a, b, e, r, rfl, hy1, hx⟩ := unify_some hr2
      have hy : (tagBy m.kind m.startTag m.endTag).attrs = e :: r := hy1
      replace hm : e.omitted = false ∧ Marks r := by simpa [MarksIn, hs, cur, hy] using hm
      obtain ⟨ho, hm⟩ := hm
      rw [ho, Bool.false_or] at hx
      clear hr hr2 hy1
      rcases hw with hc | hc | hc <;> tok_done
    rw [if_neg hw] at hr
    have hw' : ws c = false ∧ ¬ c = 0x2F ∧ ¬ c = 0x3E := by simpa using hw
    clear hw
    obtain ⟨hw, hc1, hc2⟩ := hw'
    by_cases hc : c = 0x3D
    · rw [if_pos hc] at hr
      obtain ⟨hr2, rfl⟩ := doneO_some hr
      rw [Option.map_eq_some_iff] at hr2
      obtain ⟨m1, hr3, rfl⟩ := hr2
      obtain ⟨a, b, e, r, rfl, hy1, hx⟩ := unify_some hr3
      have hy : (tagBy m.kind m.startTag m.endTag).attrs = e :: r := hy1
      replace hm : e.omitted = false ∧ Marks r := by simpa [MarksIn, hs, cur, hy] using hm
      obtain ⟨ho, hm⟩ := hm
      rw [ho, Bool.false_or] at hx
      clear hr hr3 hy1
      tok_done
    rw [if_neg hc] at hr
    by_cases h0 : c = 0
    · rw [if_pos h0] at hr
      obtain ⟨hr2, rfl⟩ := doneO_some hr
      obtain ⟨a, b, e, r, rfl, hy1, hx⟩ := updAttr_some hr2
      have hy : (tagBy m.kind m.startTag m.endTag).attrs = e :: r := hy1
      clear hr hr2 hy1 hc hw hc1 hc2
      have hc := h0
      tok_done
    rw [if_neg h0] at hr
    by_cases hq : c = 0x22 ∨ c = 0x27 ∨ c = 0x3C
    · rw [if_pos hq] at hr
      obtain ⟨hr2, rfl⟩ := doneO_some hr
      obtain ⟨a, b, e, r, rfl, hy1, hx⟩ := updAttr_some hr2
      have hy : (tagBy m.kind m.startTag m.endTag).attrs = e :: r := hy1
      clear hr hr2 hy1 hc
      rcases hq with hc | hc | hc <;> tok_done
    rw [if_neg hq] at hr
    clear hq
    split_ifs at hr <;> tok_attr

theorem selfClosing_sim (S : Sink σ) (hS : SwitchOk S) (m : M σ) (c : Option Nat) (x : Spec.HtmlTok.C σ) (h : Sit m c x)
    (hs : m.st = .selfClosing) : OutR S x c (onSelfClosing S m c) := by
  intro m2 b hr
  have hcore := h.core
  have hst : x.st = .selfClosing := by rw [h.core.st, hs]; rfl
  obtain ⟨⟨h1, h2, h3, h4, h5, h6, h7, h8, h9, h10, h11, h12, h13, h14⟩, he, hh, hm⟩ := h
  have hx : ∀ n : Nat, n + 0 = n := fun _ => rfl
  have hy : ∀ n : Nat, n + 0 = n := fun _ => rfl
  unfold Spec.HtmlTok.plain
  rw [hst, hh]
  cases c with
  | none =>
    unfold onSelfClosing at hr
    dsimp only at hr
    tok_sim0
  | some c =>
    unfold onSelfClosing at hr
    dsimp only at hr
    by_cases hc : c = 0x3E
    · rw [if_pos hc] at hr
      cases hn : updTag (fun t => { t with self := true }) m with
      | none => simp [hn] at hr
      | some m1 =>
        rw [hn] at hr
        dsimp only at hr
        obtain ⟨hr2, rfl⟩ := doneO_some hr
        obtain ⟨a, b, rfl, hx1⟩ := updTag_some hn
        have hz : tagBy m.kind a b = { cur m with self := true } := hx1
        have hcore' : Core { m with startTag := a, endTag := b } { x with tag := { x.tag with self := true } } := by
          constructor <;> simp [*, tagOf, cur]
        have hm' : Marks (cur { m with startTag := a, endTag := b }).attrs := by
          have : Marks (cur m).attrs := by simpa [MarksIn, hs] using hm
          simpa [cur, hz] using this
        have ho := emitTag_out S hS _ m2 c _ hcore' he hm' hr2
        subst hc
        tok_lit
        obtain ⟨o1, o2, o3, o4⟩ := ho
        exact ⟨o1, o2, o3, o4⟩
    · rw [if_neg hc] at hr
      tok_result
      tok_done

theorem appropriate_eq {m : M σ} {x : Spec.HtmlTok.C σ} (h : Core m x) {v : Bool} (ha : appropriate m = some v) :
    Spec.HtmlTok.If.ok x .appropriate = v := by
  unfold appropriate at ha
  split at ha
  · rename_i hk
    simp only [Option.some.injEq] at ha
    rw [← ha]
    unfold Spec.HtmlTok.If.ok
    rw [h.tag, h.last]
    simp only [tagOf, cur, tagBy, hk]
    cases m.last with
    | nil => simp
    | cons a l => 
      by_cases e : a :: l = m.endTag.name
      · rw [← e]
        simp
        exact e
      · simp [e]
  · simp at ha

/-- Not the end tag. -/
theorem notEnd_out (S : Sink σ) (m m2 : M σ) (b : Bool) (c : Option Nat) (x : Spec.HtmlTok.C σ) (st : St) (h : Core m x) (he : x.ended = false)
    (hm : c = none ∨ Marks (cur m).attrs) (hst : st = .rcdata ∨ st = .rawtext ∨ st = .scriptData ∨ st = .scriptEsc)
    (hr : notEnd S st m = some (m2, b)) : Out m2 b c x
      (x.tmp.foldl (fun x c => Spec.HtmlTok.emit (envOf S) (.char c) x)
        (Spec.HtmlTok.emit (envOf S) (.char 0x2F) (Spec.HtmlTok.emit (envOf S) (.char 0x3C) { x with st := stOf st }))) := by
  obtain ⟨h1, h2, h3, h4, h5, h6, h7, h8, h9, h10, h11, h12, h13, h14⟩ := h
  unfold notEnd at hr
  tok_result
  rw [emitAll_eq, chrs_eq]
  clear h13 h14
  have hs : st ≠ .publicIdDq ∧ st ≠ .publicIdSq ∧ st ≠ .systemIdDq ∧ st ≠ .systemIdSq ∧ st ≠ .attrName := by
    rcases hst with rfl | rfl | rfl | rfl <;> simp
  have hx := hs
  have hy := hs
  tok_fields

set_option hygiene false in
macro "tok_notEnd" : tactic => `(tactic|
  (have ho := fun k => notEnd_out S m m2 b (some k) x text hcore he (Or.inr hm') hst hr
   clear h1 h2 h3 h4 h5 h6 h7 h8 h9 h10 h11 h12 h13 h14
   simp [Spec.HtmlTok.pick, Spec.HtmlTok.row, Spec.HtmlTok.rowOk, Spec.HtmlTok.endName, List.find?, Spec.HtmlTok.On.ok,
     Spec.HtmlTok.isUpper, Spec.HtmlTok.isLower, if_always, Spec.HtmlTok.Do.run, Spec.HtmlTok.putc, Spec.HtmlTok.Src.val, hap]
   exact ho _))

set_option hygiene false in
macro "tok_end" : tactic => `(tactic|
  (tok_result
   simp [Spec.HtmlTok.pick, Spec.HtmlTok.row, Spec.HtmlTok.rowOk, Spec.HtmlTok.endName, List.find?, Spec.HtmlTok.On.ok,
     Spec.HtmlTok.isUpper, Spec.HtmlTok.isLower, if_always, Spec.HtmlTok.Do.run, Spec.HtmlTok.putc, Spec.HtmlTok.Src.val, hap]
   tok_fields))

theorem rawEndName_sim (S : Sink σ) (hS : SwitchOk S) (m : M σ) (c : Option Nat) (x : Spec.HtmlTok.C σ) (text self : St) (h : Sit m c x)
    (hs : m.st = self) (hself : Spec.HtmlTok.table (stOf self) = Spec.HtmlTok.endName (stOf text))
    (hst : text = .rcdata ∨ text = .rawtext ∨ text = .scriptData ∨ text = .scriptEsc) (hat : endSt self = true) :
    OutR S x c (onRawEndName S text m c) := by
  intro m2 b hr
  have hcore := h.core
  have hst' : x.st = stOf self := by rw [h.core.st, hs]
  obtain ⟨⟨h1, h2, h3, h4, h5, h6, h7, h8, h9, h10, h11, h12, h13, h14⟩, he, hh, hm⟩ := h
  have hx : ∀ n : Nat, n + 0 = n := fun _ => rfl
  have hy : self ≠ .publicIdDq ∧ self ≠ .publicIdSq ∧ self ≠ .systemIdDq ∧ self ≠ .systemIdSq ∧ self ≠ .attrName := by
    refine ⟨?_, ?_, ?_, ?_, ?_⟩ <;> (rintro rfl; simp [endSt] at hat)
  have hna := hy.2.2.2.2
  unfold Spec.HtmlTok.plain
  rw [hst', hh, hself]
  cases c with
  | none =>
    have ho := notEnd_out S m m2 b none x text hcore he (Or.inl rfl) hst hr
    exact ho
  | some c =>
    have hm' : Marks (cur m).attrs := by simpa [MarksIn, hs, hna] using hm
    replace hm := hm'
    unfold onRawEndName at hr
    dsimp only at hr
    by_cases hw : ws c = true
    · rw [if_pos hw] at hr
      have hw' : c = 0x9 ∨ c = 0xA ∨ c = 0xC ∨ c = 0x20 := by simpa [ws, or_assoc] using hw
      cases ha : appropriate m with
      | none => simp [ha] at hr
      | some v =>
        have hap := appropriate_eq hcore ha
        rw [ha] at hr
        clear ha hw
        cases v with
        | true => rcases hw' with rfl | rfl | rfl | rfl <;> tok_end
        | false => rcases hw' with rfl | rfl | rfl | rfl <;> tok_notEnd
    rw [if_neg hw] at hr
    by_cases h2f : c = 0x2F
    · rw [if_pos h2f] at hr
      cases ha : appropriate m with
      | none => simp [ha] at hr
      | some v =>
        have hap := appropriate_eq hcore ha
        rw [ha] at hr
        subst h2f
        clear ha hw
        cases v with
        | true => tok_end
        | false => tok_notEnd
    rw [if_neg h2f] at hr
    by_cases h3e : c = 0x3E
    · rw [if_pos h3e] at hr
      cases ha : appropriate m with
      | none => simp [ha] at hr
      | some v =>
        have hap := appropriate_eq hcore ha
        rw [ha] at hr
        subst h3e
        clear ha hw
        cases v with
        | true =>
          obtain ⟨hr2, rfl⟩ := doneO_some hr
          have ho := emitTag_out S hS m m2 0x3E x hcore he hm' hr2
          simp [Spec.HtmlTok.pick, Spec.HtmlTok.row, Spec.HtmlTok.rowOk, Spec.HtmlTok.endName, List.find?, Spec.HtmlTok.On.ok,
            Spec.HtmlTok.Do.run, hap]
          exact ho
        | false => tok_notEnd
    rw [if_neg h3e] at hr
    have hw' : ws c = false := by simpa using hw
    clear hw
    by_cases hu : isAsciiUpperAlpha c = true
    · rw [if_pos hu] at hr
      obtain ⟨hr2, rfl⟩ := doneO_some hr
      rw [Option.map_eq_some_iff] at hr2
      obtain ⟨m1, hr3, rfl⟩ := hr2
      obtain ⟨a, b, rfl, hx⟩ := updTag_some hr3
      clear hr hr3
      have hl := low_upper hu
      simp [Spec.HtmlTok.pick, Spec.HtmlTok.row, Spec.HtmlTok.rowOk, Spec.HtmlTok.endName, List.find?, on_white, on_is, on_upper,
        if_always, Spec.HtmlTok.Do.run, Spec.HtmlTok.putc, Spec.HtmlTok.Src.val, hw', h2f, h3e, hu, hl]
      tok_fields
    rw [if_neg hu] at hr
    have hu' : isAsciiUpperAlpha c = false := by simpa using hu
    by_cases hl : isAsciiLowerAlpha c = true
    · rw [if_pos hl] at hr
      obtain ⟨hr2, rfl⟩ := doneO_some hr
      rw [Option.map_eq_some_iff] at hr2
      obtain ⟨m1, hr3, rfl⟩ := hr2
      obtain ⟨a, b, rfl, hx⟩ := updTag_some hr3
      clear hr hr3
      simp [Spec.HtmlTok.pick, Spec.HtmlTok.row, Spec.HtmlTok.rowOk, Spec.HtmlTok.endName, List.find?, on_white, on_is, on_upper, on_lower,
        if_always, Spec.HtmlTok.Do.run, Spec.HtmlTok.putc, Spec.HtmlTok.Src.val, hw', h2f, h3e, hu', hl]
      tok_fields
    · rw [if_neg hl] at hr
      have hl' : isAsciiLowerAlpha c = false := by simpa using hl
      have ho := notEnd_out S m m2 b (some c) x text hcore he (Or.inr hm') hst hr
      simp [Spec.HtmlTok.pick, Spec.HtmlTok.row, Spec.HtmlTok.rowOk, Spec.HtmlTok.endName, List.find?, on_white, on_is, on_upper, on_lower,
        on_any, if_always, Spec.HtmlTok.Do.run, Spec.HtmlTok.putc, Spec.HtmlTok.Src.val, hw', h2f, h3e, hu', hl']
      exact ho

/-! Character references. -/

theorem charRef_sim (S : Sink σ) (m : M σ) (c : Option Nat) (x : Spec.HtmlTok.C σ) (h : Sit m c x) (hs : m.st = .charRef)
    (hp : ∀ e, m.ret = some e → isRet e = true) : OutR S x c (onCharRef S m c) := by
  intro m2 b hr
  have hcore := h.core
  have hst : x.st = .charRef := by rw [h.core.st, hs]; rfl
  obtain ⟨⟨h1, h2, h3, h4, h5, h6, h7, h8, h9, h10, h11, h12, h13, h14⟩, he, hh, hm⟩ := h
  have hx : ∀ n : Nat, n + 0 = n := fun _ => rfl
  have hy : ∀ n : Nat, n + 0 = n := fun _ => rfl
  have hm' : c = none ∨ Marks (cur m).attrs := by simpa [MarksIn, hs] using hm
  unfold Spec.HtmlTok.plain
  rw [hst, hh]
  cases c with
  | none =>
    exact flushBack_out S m m2 b none x [0x26] hcore he hp hm' hr
  | some c =>
    unfold onCharRef at hr
    dsimp only at hr
    by_cases hc : isAsciiAlphanumeric c = true
    · rw [if_pos hc] at hr
      clear hp
      tok_result
      tok_done
    rw [if_neg hc] at hr
    have hc' : isAsciiAlphanumeric c = false := by simpa using hc
    clear hc
    by_cases hc : c = 0x23
    · rw [if_pos hc] at hr
      clear hp
      tok_result
      tok_done
    rw [if_neg hc] at hr
    have ho := flushBack_out S m m2 b (some c) x [0x26] hcore he hp hm' hr
    simp [Spec.HtmlTok.pick, Spec.HtmlTok.table, Spec.HtmlTok.row, List.find?, on_alnum, on_is, on_any, if_always, Spec.HtmlTok.Do.run,
      Spec.HtmlTok.putc, Spec.HtmlTok.Src.val, hc, hc']
    exact ho

theorem hexStart_sim (S : Sink σ) (m : M σ) (c : Option Nat) (x : Spec.HtmlTok.C σ) (h : Sit m c x) (hs : m.st = .hexStart)
    (hp : ∀ e, m.ret = some e → isRet e = true) : OutR S x c (onHexStart S m c) := by
  intro m2 b hr
  have hcore := h.core
  have hst : x.st = .hexStart := by rw [h.core.st, hs]; rfl
  obtain ⟨⟨h1, h2, h3, h4, h5, h6, h7, h8, h9, h10, h11, h12, h13, h14⟩, he, hh, hm⟩ := h
  have hx : ∀ n : Nat, n + 0 = n := fun _ => rfl
  have hy : ∀ n : Nat, n + 0 = n := fun _ => rfl
  have hm' : c = none ∨ Marks (cur m).attrs := by simpa [MarksIn, hs] using hm
  unfold Spec.HtmlTok.plain
  rw [hst, hh]
  cases c with
  | none =>
    have ho := flushBack_out S m m2 b none x m.tmp hcore he hp hm' hr
    rw [← h3] at ho
    exact ho
  | some c =>
    unfold onHexStart at hr
    dsimp only at hr
    by_cases hc : isAsciiHexDigit c = true
    · rw [if_pos hc] at hr
      clear hp
      tok_result
      tok_done
    rw [if_neg hc] at hr
    have hc' : isAsciiHexDigit c = false := by simpa using hc
    have ho := flushBack_out S m m2 b (some c) x m.tmp hcore he hp hm' hr
    rw [← h3] at ho
    simp [Spec.HtmlTok.pick, Spec.HtmlTok.table, Spec.HtmlTok.row, List.find?, on_hex, on_any, if_always, Spec.HtmlTok.Do.run, hc']
    exact ho

theorem decStart_sim (S : Sink σ) (m : M σ) (c : Option Nat) (x : Spec.HtmlTok.C σ) (h : Sit m c x) (hs : m.st = .decStart)
    (hp : ∀ e, m.ret = some e → isRet e = true) : OutR S x c (onDecStart S m c) := by
  intro m2 b hr
  have hcore := h.core
  have hst : x.st = .decStart := by rw [h.core.st, hs]; rfl
  obtain ⟨⟨h1, h2, h3, h4, h5, h6, h7, h8, h9, h10, h11, h12, h13, h14⟩, he, hh, hm⟩ := h
  have hx : ∀ n : Nat, n + 0 = n := fun _ => rfl
  have hy : ∀ n : Nat, n + 0 = n := fun _ => rfl
  have hm' : c = none ∨ Marks (cur m).attrs := by simpa [MarksIn, hs] using hm
  unfold Spec.HtmlTok.plain
  rw [hst, hh]
  cases c with
  | none =>
    have ho := flushBack_out S m m2 b none x m.tmp hcore he hp hm' hr
    rw [← h3] at ho
    exact ho
  | some c =>
    unfold onDecStart at hr
    dsimp only at hr
    by_cases hc : isAsciiDigit c = true
    · rw [if_pos hc] at hr
      clear hp
      tok_result
      tok_done
    rw [if_neg hc] at hr
    have hc' : isAsciiDigit c = false := by simpa using hc
    have ho := flushBack_out S m m2 b (some c) x m.tmp hcore he hp hm' hr
    rw [← h3] at ho
    simp [Spec.HtmlTok.pick, Spec.HtmlTok.table, Spec.HtmlTok.row, List.find?, on_digit, on_any, if_always, Spec.HtmlTok.Do.run, hc']
    exact ho

theorem ambiguousAmp_sim (S : Sink σ) (m : M σ) (c : Option Nat) (x : Spec.HtmlTok.C σ) (h : Sit m c x) (hs : m.st = .ambiguousAmp)
    (hp : ∀ e, m.ret = some e → isRet e = true) : OutR S x c (onAmbiguousAmp S m c) := by
  intro m2 b hr
  have hcore := h.core
  have hst : x.st = .ambiguousAmp := by rw [h.core.st, hs]; rfl
  obtain ⟨⟨h1, h2, h3, h4, h5, h6, h7, h8, h9, h10, h11, h12, h13, h14⟩, he, hh, hm⟩ := h
  have hx : ∀ n : Nat, n + 0 = n := fun _ => rfl
  have hy : ∀ n : Nat, n + 0 = n := fun _ => rfl
  have hm' : c = none ∨ Marks (cur m).attrs := by simpa [MarksIn, hs] using hm
  unfold Spec.HtmlTok.plain
  rw [hst, hh]
  cases c with
  | none => exact reRet_out S m m2 b none x hcore he hp hm' hr
  | some c =>
    unfold onAmbiguousAmp at hr
    dsimp only at hr
    by_cases hc : isAsciiAlphanumeric c = true
    · rw [if_pos hc] at hr
      have hin : Spec.HtmlTok.inAttr { x with rest := x.rest.tail } = inAttr m := inAttr_eq h2
      by_cases hi : inAttr m = true
      · rw [if_pos hi] at hr
        rw [hi] at hin
        obtain ⟨hr2, rfl⟩ := doneO_some hr
        obtain ⟨a, b, e, r, rfl, hy1, hx⟩ := updAttr_some hr2
        have hy : (tagBy m.kind m.startTag m.endTag).attrs = e :: r := hy1
        clear hr hr2 hy1 hp
        simp only [hst] at hin
        simp [Spec.HtmlTok.pick, Spec.HtmlTok.table, Spec.HtmlTok.row, on_alnum, hc, if_always, Spec.HtmlTok.Do.run, Spec.HtmlTok.putc,
          Spec.HtmlTok.Src.val, hin]
        tok_fields
      · rw [if_neg hi] at hr
        have hi' : inAttr m = false := by simpa using hi
        rw [hi'] at hin
        tok_result
        simp only [hst] at hin
        simp [Spec.HtmlTok.pick, Spec.HtmlTok.table, Spec.HtmlTok.row, on_alnum, hc, if_always, Spec.HtmlTok.Do.run, Spec.HtmlTok.putc,
          Spec.HtmlTok.Src.val, hin]
        tok_fields
    rw [if_neg hc] at hr
    have hc' : isAsciiAlphanumeric c = false := by simpa using hc
    have hr' : reRet m = some (m2, b) := by split_ifs at hr <;> exact hr
    have ho := reRet_out S m m2 b (some c) x hcore he hp hm' hr'
    simp [Spec.HtmlTok.pick, Spec.HtmlTok.table, Spec.HtmlTok.row, List.find?, on_alnum, on_any, if_always, hc']
    exact ho

theorem hexVal_eq {c : Nat} (h : isAsciiHexDigit c = true) :
    Spec.HtmlTok.hexVal c = if isAsciiDigit c then c - 0x30 else if isAsciiUpperHexDigit c then c - 0x37 else c - 0x57 := by
  unfold Spec.HtmlTok.hexVal
  simp only [isAsciiHexDigit, isAsciiUpperHexDigit, isAsciiLowerHexDigit, isAsciiDigit, Bool.or_eq_true, Bool.and_eq_true, decide_eq_true_eq] at h
  simp only [Spec.HtmlTok.isDigit, Spec.HtmlTok.isUpper, isAsciiDigit, isAsciiUpperHexDigit, Bool.or_eq_true, Bool.and_eq_true, decide_eq_true_eq]
  split_ifs <;> omega

theorem hexRef_sim (S : Sink σ) (m : M σ) (c : Option Nat) (x : Spec.HtmlTok.C σ) (h : Sit m c x) (hs : m.st = .hexRef) :
    OutR S x c (onHexRef m c) := by
  intro m2 b hr
  have hst : x.st = .hexRef := by rw [h.core.st, hs]; rfl
  obtain ⟨⟨h1, h2, h3, h4, h5, h6, h7, h8, h9, h10, h11, h12, h13, h14⟩, he, hh, hm⟩ := h
  have hx : ∀ d, (x.code % 4294967296 * 16 + d) % 4294967296 = (x.code * 16 + d) % 4294967296 := by
    intro d
    omega
  have hy : ∀ n : Nat, n + 0 = n := fun _ => rfl
  unfold Spec.HtmlTok.plain
  rw [hst, hh]
  cases c with
  | none =>
    unfold onHexRef at hr
    dsimp only at hr
    tok_sim0
  | some c =>
    unfold onHexRef at hr
    dsimp only at hr
    by_cases hc : isAsciiHexDigit c = true
    · rw [if_pos hc, ← hexVal_eq hc] at hr
      tok_result
      simp [Spec.HtmlTok.pick, Spec.HtmlTok.table, Spec.HtmlTok.row, on_hex, hc, if_always, Spec.HtmlTok.Do.run]
      tok_fields
    rw [if_neg hc] at hr
    split_ifs at hr <;> tok_sim1

theorem decRef_sim (S : Sink σ) (m : M σ) (c : Option Nat) (x : Spec.HtmlTok.C σ) (h : Sit m c x) (hs : m.st = .decRef) :
    OutR S x c (onDecRef m c) := by
  intro m2 b hr
  have hst : x.st = .decRef := by rw [h.core.st, hs]; rfl
  obtain ⟨⟨h1, h2, h3, h4, h5, h6, h7, h8, h9, h10, h11, h12, h13, h14⟩, he, hh, hm⟩ := h
  have hx : ∀ d, (x.code % 4294967296 * 10 + d) % 4294967296 = (x.code * 10 + d) % 4294967296 := by
    intro d
    omega
  have hy : ∀ n : Nat, n + 0 = n := fun _ => rfl
  unfold Spec.HtmlTok.plain
  rw [hst, hh]
  cases c with
  | none =>
    unfold onDecRef at hr
    dsimp only at hr
    tok_sim0
  | some c =>
    unfold onDecRef at hr
    dsimp only at hr
    by_cases hc : isAsciiDigit c = true
    · rw [if_pos hc] at hr
      tok_result
      simp [Spec.HtmlTok.pick, Spec.HtmlTok.table, Spec.HtmlTok.row, on_digit, hc, if_always, Spec.HtmlTok.Do.run]
      tok_fields
    rw [if_neg hc] at hr
    split_ifs at hr <;> tok_sim1

end Verif.Proof.HtmlTok
