import Verif.Proof.HtmlTokInv
/-
Safety of the state functions: within tags.
-/
namespace Verif.Proof.HtmlTok
open Verif.Model.HtmlTok Verif.Model.HtmlInput Verif.Model.Infra
variable {σ : Type}

theorem tagName_ok (S : Sink σ) (hS : SwitchOk S) (m : M σ) (c : Option Nat) (h : Pre m c) (hs : m.st = .tagName) :
    OkR m c (onTagName S m c) := by
  have hn := h.need (by rw [hs]; rfl)
  rw [hs] at hn
  have hk : hasTag m := hn.1 rfl
  have hne : m.st ≠ .afterAttrName ∧ m.st ≠ .charRef ∧ m.st ≠ .namedRef := by rw [hs]; decide
  cases c with
  | none => unfold onTagName; tok_ok
  | some c =>
    unfold onTagName
    dsimp only
    split_ifs
    · tok_ok
    · tok_ok
    · exact emitTag_ok S hS m m _ (by simp) hk rfl
    · exact stay_ok m c _ h hne (pushName_keeps _ m hk)
    · exact stay_ok m c _ h hne (pushName_keeps _ m hk)
    · exact stay_ok m c _ h hne (pushName_keeps _ m hk)

theorem notEnd_ok (S : Sink σ) (text : St) (m : M σ) (c : Option Nat) (hk : hasTag m)
    (ht : text = .rcdata ∨ text = .rawtext ∨ text = .scriptData ∨ text = .scriptEsc) (hr : 0 < rank m.st c) :
    OkR m c (notEnd S text m) := by
  have k : Keeps m (chrs S m.tmp (chr S 0x2F (chr S 0x3C m))) :=
    Keeps.trans (b := chr S 0x2F (chr S 0x3C m)) ⟨rfl, rfl, rfl, rfl, id⟩ (chrs_keeps S m.tmp (chr S 0x2F (chr S 0x3C m)))
  have hk' : hasTag (chrs S m.tmp (chr S 0x2F (chr S 0x3C m))) := by unfold hasTag; rw [k.kind]; exact hk
  unfold notEnd re
  refine go_ok m _ c text true k ⟨fun _ => hk', ?_⟩ ?_ ?_ ?_ ?_ ?_ <;>
    rcases ht with rfl | rfl | rfl | rfl <;> first | exact fun _ => hr | simp [attrSt, refSt, endSt]

theorem rawEndName_ok (S : Sink σ) (hS : SwitchOk S) (text : St) (m : M σ) (c : Option Nat) (h : Pre m c) (hs : endSt m.st = true)
    (ht : text = .rcdata ∨ text = .rawtext ∨ text = .scriptData ∨ text = .scriptEsc) : OkR m c (onRawEndName S text m c) := by
  have h3 := h.endk hs
  have hk : hasTag m := Or.inr h3
  have hne : m.st ≠ .afterAttrName ∧ m.st ≠ .charRef ∧ m.st ≠ .namedRef := by refine ⟨?_, ?_, ?_⟩ <;> intro x <;> rw [x] at hs <;> exact absurd hs (by decide)
  have hr : 0 < rank m.st c := by revert hs; cases m.st <;> simp [endSt, rank]
  have ha : appropriate m = some (!(m.last.isEmpty || m.last ≠ m.endTag.name)) := by unfold appropriate; rw [if_pos h3]
  have hnot := notEnd_ok S text m c hk ht hr
  cases c with
  | none => exact hnot
  | some c =>
    unfold onRawEndName
    dsimp only
    rw [ha]
    generalize (!(m.last.isEmpty || m.last ≠ m.endTag.name)) = b
    split_ifs
    · cases b
      · exact hnot
      · exact go_ok m m _ .beforeAttrName false (Keeps.refl m) ⟨fun _ => hk, by simp [attrSt]⟩ rfl rfl (by simp) (by simp) (by simp)
    · cases b
      · exact hnot
      · exact go_ok m m _ .selfClosing false (Keeps.refl m) ⟨fun _ => hk, by simp [attrSt]⟩ rfl rfl (by simp) (by simp) (by simp)
    · cases b
      · exact hnot
      · exact emitTag_ok S hS m m _ (by simp) hk rfl
    · exact stay_ok m c _ h hne (pushNameTmp_keeps _ _ m hk)
    · exact stay_ok m c _ h hne (pushNameTmp_keeps _ _ m hk)
    · exact hnot

theorem newAttr_re_ok (m : M σ) (c : Option Nat) (hk : hasTag m) (hr : rank .attrName c < rank m.st c) :
    OkR m c (reO .attrName (newAttr m)) := by
  obtain ⟨m1, e1, k1, a1⟩ := newAttr_keeps m hk
  rw [e1]
  exact go_ok m m1 c .attrName true k1 ⟨fun _ => hasAttr_tag a1, fun _ => a1⟩ rfl rfl (by simp) (fun _ => hr) (by simp)

theorem beforeAttrName_ok (m : M σ) (c : Option Nat) (h : Pre m c) (hs : m.st = .beforeAttrName) :
    OkR m c (onBeforeAttrName m c) := by
  have hn := h.need (by rw [hs]; rfl)
  rw [hs] at hn
  have hk : hasTag m := hn.1 rfl
  cases c with
  | none =>
    unfold onBeforeAttrName re
    refine ⟨_, _, rfl, rfl, ?_, ?_, ?_, ?_, ?_, ?_, by simp [go], by simp [go]⟩
    · simp [go, refSt]
    · exact fun _ => ⟨fun _ => hk, by simp [go, attrSt]⟩
    · simp [go, endSt]
    · exact fun _ => Or.inr (Or.inr rfl)
    · simp only [go, hs, rank]
      split_ifs <;> simp
    · simp
  | some c =>
    unfold onBeforeAttrName
    dsimp only
    split_ifs with h1 h2 h3
    · tok_ok
    · unfold re
      refine ⟨_, _, rfl, rfl, ?_, ?_, ?_, ?_, ?_, ?_, by simp [go], by simp [go]⟩
      · simp [go, refSt]
      · exact fun _ => ⟨fun _ => hk, by simp [go, attrSt]⟩
      · simp [go, endSt]
      · simp [go, h2]
      · simp only [go, hs, rank]
        split_ifs <;> simp
      · simp
    · obtain ⟨m1, e1, k1, a1⟩ := newAttr_keeps m hk
      obtain ⟨m2, e2, k2⟩ := updAttr_keeps (fun a => { a with name := [c] }) m1 a1
      rw [e1]
      dsimp only
      rw [e2]
      exact go_ok m m2 _ .attrName false (k1.trans k2) ⟨fun _ => hasAttr_tag (k2.attr a1), fun _ => k2.attr a1⟩ rfl rfl (by simp)
        (by simp) (by simp)
    · refine newAttr_re_ok m _ hk ?_
      rw [hs]
      simp only [rank]
      split_ifs <;> simp

theorem attrName_ok (m : M σ) (c : Option Nat) (h : Pre m c) (hs : m.st = .attrName) : OkR m c (onAttrName m c) := by
  have hn := h.need (by rw [hs]; rfl)
  rw [hs] at hn
  have hk : hasTag m := hn.1 rfl
  have ha : hasAttr m := hn.2 rfl
  have hne : m.st ≠ .afterAttrName ∧ m.st ≠ .charRef ∧ m.st ≠ .namedRef := by rw [hs]; decide
  cases c with
  | none =>
    unfold onAttrName re
    refine go_ok m m none .afterAttrName true (Keeps.refl m) ⟨fun _ => hk, by simp [attrSt]⟩ rfl rfl (fun _ => ha) ?_ (by simp)
    intro _
    rw [hs]
    simp [rank, closes]
  | some c =>
    unfold onAttrName
    dsimp only
    split_ifs with h1
    · obtain ⟨m1, e1, k1⟩ := unify_keeps m ha
      rw [e1]
      refine go_ok m m1 _ .afterAttrName true k1 ⟨fun _ => hasAttr_tag (k1.attr ha), by simp [attrSt]⟩ rfl rfl
        (fun _ => k1.attr ha) ?_ (by simp)
      intro _
      have hcl : closes (some c) = true := by simp only [closes, Bool.or_eq_true, beq_iff_eq]; tauto
      simp [rank, hs, hcl]
    · obtain ⟨m1, e1, k1⟩ := unify_keeps m ha
      rw [e1]
      exact go_ok m m1 _ .beforeAttrValue false k1 ⟨fun _ => hasAttr_tag (k1.attr ha), fun _ => k1.attr ha⟩ rfl rfl
        (by simp) (by simp) (by simp)
    · exact stay_ok m c _ h hne (updAttr_keeps _ m ha)
    · exact stay_ok m c _ h hne (updAttr_keeps _ m ha)
    · exact stay_ok m c _ h hne (updAttr_keeps _ m ha)
    · exact stay_ok m c _ h hne (updAttr_keeps _ m ha)

theorem afterAttrName_ok (S : Sink σ) (hS : SwitchOk S) (m : M σ) (c : Option Nat) (h : Pre m c) (hs : m.st = .afterAttrName) :
    OkR m c (onAfterAttrName S m c) := by
  have hn := h.need (by rw [hs]; rfl)
  rw [hs] at hn
  have hk : hasTag m := hn.1 rfl
  cases c with
  | none =>
    unfold onAfterAttrName
    have haf := h.after hs
    refine ⟨_, _, rfl, rfl, ?_, ?_, ?_, ?_, by simp, fun _ _ => rfl, by simp [emitEof, emit, hs], by simp [emitEof, emit, hs]⟩
    · simp [emitEof, emit, hs, refSt]
    · simp only [emitEof, emit, hs]; exact fun _ => hn
    · simp [emitEof, emit, hs, endSt]
    · exact fun _ => Or.inr (Or.inr rfl)
  | some c =>
    have haf := h.after hs
    unfold onAfterAttrName
    dsimp only
    split_ifs with h1 h2 h3 h4
    · refine ⟨_, _, rfl, rfl, ?_, ?_, ?_, ?_, by simp, by simp, by simp [hs], by simp [hs]⟩
      · simp [hs, refSt]
      · rw [hs]; exact fun _ => hn
      · simp [hs, endSt]
      · intro _
        rcases haf with haf | haf | haf | haf
        · exact Or.inl haf
        · simp only [Option.some.injEq] at haf; subst haf; exact absurd h1 (by decide)
        · simp only [Option.some.injEq] at haf; subst haf; exact absurd h1 (by decide)
        · cases haf
    · exact go_ok m m _ .selfClosing false (Keeps.refl m) ⟨fun _ => hk, by simp [attrSt]⟩ rfl rfl (by simp) (by simp) (by simp)
    · have ha : hasAttr m := by
        rcases haf with haf | haf | haf | haf
        · exact haf
        · simp only [Option.some.injEq] at haf; omega
        · simp only [Option.some.injEq] at haf; omega
        · cases haf
      exact go_ok m m _ .beforeAttrValue false (Keeps.refl m) ⟨fun _ => hk, fun _ => ha⟩ rfl rfl (by simp) (by simp) (by simp)
    · exact emitTag_ok S hS m m _ (by simp) hk rfl
    · refine newAttr_re_ok m _ hk ?_
      have hcl : closes (some c) = false := by simp [closes, h1, h2, h4]
      simp [rank, hs, hcl]

theorem beforeAttrValue_ok (S : Sink σ) (hS : SwitchOk S) (m : M σ) (c : Option Nat) (h : Pre m c) (hs : m.st = .beforeAttrValue) :
    OkR m c (onBeforeAttrValue S m c) := by
  have hn := h.need (by rw [hs]; rfl)
  rw [hs] at hn
  have hk : hasTag m := hn.1 rfl
  have ha : hasAttr m := hn.2 rfl
  have hg : ∀ c' : Nat, ∀ st, (st = .attrValueDq ∨ st = .attrValueSq) → OkR m (some c') (some (go st m, false)) := by
    intro c' st hst
    refine go_ok m m _ st false (Keeps.refl m) ⟨fun _ => hk, fun _ => ha⟩ ?_ ?_ ?_ (by simp) (by simp) <;>
      rcases hst with rfl | rfl <;> simp [refSt, endSt]
  have hu : OkR m c (re .attrValueUq m) :=
    go_ok m m _ .attrValueUq true (Keeps.refl m) ⟨fun _ => hk, fun _ => ha⟩ rfl rfl (by simp) (by simp [hs, rank]) (by simp)
  cases c with
  | none => exact hu
  | some c =>
    unfold onBeforeAttrValue
    dsimp only
    split_ifs
    · refine stay_ok m c (some m) h (by rw [hs]; decide) ⟨m, rfl, Keeps.refl m⟩
    · exact hg c _ (Or.inl rfl)
    · exact hg c _ (Or.inr rfl)
    · exact emitTag_ok S hS m m _ (by simp) hk rfl
    · exact hu

theorem toRef_ok (m : M σ) (c : Nat) (hc : c = 0x26) (st : St) (hr : isRet st = true) (hn : Need st m) :
    OkR m (some c) (done (go .charRef { m with ret := some st })) := by
  refine ⟨_, _, rfl, rfl, ?_, ?_, ?_, ?_, by simp, by simp, fun _ => ⟨rfl, by rw [hc]⟩, by simp [go]⟩
  · exact fun _ => ⟨st, rfl, hr, hn⟩
  · simp [go, refSt]
  · simp [go, endSt]
  · simp [go]

theorem eof_ok (S : Sink σ) (m : M σ) (h : Pre m none) (hs : m.st ≠ .afterAttrName ∧ m.st ≠ .charRef ∧ m.st ≠ .namedRef) : OkR m none (done (emitEof S m)) :=
  ⟨_, _, rfl, rfl, h.ret, h.need, h.endk, fun x => absurd x hs.1, by simp, fun _ _ => rfl, fun x => absurd x hs.2.1, fun x => absurd x hs.2.2⟩

theorem attrValueQ_ok (S : Sink σ) (q : Nat) (m : M σ) (c : Option Nat) (h : Pre m c)
    (hs : m.st = .attrValueDq ∨ m.st = .attrValueSq) : OkR m c (onAttrValueQ S q m.st m c) := by
  have hn := h.need (by rcases hs with hs | hs <;> rw [hs] <;> rfl)
  have hne : m.st ≠ .afterAttrName ∧ m.st ≠ .charRef ∧ m.st ≠ .namedRef := by rcases hs with hs | hs <;> rw [hs] <;> decide
  have hk : hasTag m := hn.1 (by rcases hs with hs | hs <;> rw [hs] <;> rfl)
  have ha : hasAttr m := hn.2 (by rcases hs with hs | hs <;> rw [hs] <;> rfl)
  cases c with
  | none => exact eof_ok S m h hne
  | some c =>
    unfold onAttrValueQ
    dsimp only
    split_ifs with g1 g2
    · exact go_ok m m _ .afterAttrValue false (Keeps.refl m) ⟨fun _ => hk, by simp [attrSt]⟩ rfl rfl (by simp) (by simp) (by simp)
    · exact toRef_ok m c g2 _ (by rcases hs with hs | hs <;> rw [hs] <;> rfl) hn
    · exact stay_ok m c _ h hne (updAttr_keeps _ m ha)
    · exact stay_ok m c _ h hne (updAttr_keeps _ m ha)

theorem attrValueUq_ok (S : Sink σ) (hS : SwitchOk S) (m : M σ) (c : Option Nat) (h : Pre m c) (hs : m.st = .attrValueUq) :
    OkR m c (onAttrValueUq S m c) := by
  have hn := h.need (by rw [hs]; rfl)
  have hne : m.st ≠ .afterAttrName ∧ m.st ≠ .charRef ∧ m.st ≠ .namedRef := by rw [hs]; decide
  rw [hs] at hn
  have hk : hasTag m := hn.1 rfl
  have ha : hasAttr m := hn.2 rfl
  cases c with
  | none => exact eof_ok S m h hne
  | some c =>
    unfold onAttrValueUq
    dsimp only
    split_ifs with g1 g2
    · exact go_ok m m _ .beforeAttrName false (Keeps.refl m) ⟨fun _ => hk, by simp [attrSt]⟩ rfl rfl (by simp) (by simp) (by simp)
    · exact toRef_ok m c g2 _ rfl hn
    · exact emitTag_ok S hS m m _ (by simp) hk rfl
    · exact stay_ok m c _ h hne (updAttr_keeps _ m ha)
    · exact stay_ok m c _ h hne (updAttr_keeps _ m ha)

theorem afterAttrValue_ok (S : Sink σ) (hS : SwitchOk S) (m : M σ) (c : Option Nat) (h : Pre m c) (hs : m.st = .afterAttrValue) :
    OkR m c (onAfterAttrValue S m c) := by
  have hn := h.need (by rw [hs]; rfl)
  have hne : m.st ≠ .afterAttrName ∧ m.st ≠ .charRef ∧ m.st ≠ .namedRef := by rw [hs]; decide
  rw [hs] at hn
  have hk : hasTag m := hn.1 rfl
  cases c with
  | none => exact eof_ok S m h hne
  | some c =>
    unfold onAfterAttrValue
    dsimp only
    split_ifs
    · exact go_ok m m _ .beforeAttrName false (Keeps.refl m) ⟨fun _ => hk, by simp [attrSt]⟩ rfl rfl (by simp) (by simp) (by simp)
    · exact go_ok m m _ .selfClosing false (Keeps.refl m) ⟨fun _ => hk, by simp [attrSt]⟩ rfl rfl (by simp) (by simp) (by simp)
    · exact emitTag_ok S hS m m _ (by simp) hk rfl
    · exact go_ok m m _ .beforeAttrName true (Keeps.refl m) ⟨fun _ => hk, by simp [attrSt]⟩ rfl rfl (by simp) (by simp [hs, rank])
        (by simp)

theorem selfClosing_ok (S : Sink σ) (hS : SwitchOk S) (m : M σ) (c : Option Nat) (h : Pre m c) (hs : m.st = .selfClosing) :
    OkR m c (onSelfClosing S m c) := by
  have hn := h.need (by rw [hs]; rfl)
  have hne : m.st ≠ .afterAttrName ∧ m.st ≠ .charRef ∧ m.st ≠ .namedRef := by rw [hs]; decide
  rw [hs] at hn
  have hk : hasTag m := hn.1 rfl
  cases c with
  | none => exact eof_ok S m h hne
  | some c =>
    unfold onSelfClosing
    dsimp only
    split_ifs
    · obtain ⟨m1, e1, k1⟩ := updTag_keeps (fun t => { t with self := true }) m hk (fun _ h => h)
      rw [e1]
      exact emitTag_ok S hS m1 m _ (by simp) (by unfold hasTag; rw [k1.kind]; exact hk) k1.inp
    · exact go_ok m m _ .beforeAttrName true (Keeps.refl m) ⟨fun _ => hk, by simp [attrSt]⟩ rfl rfl (by simp) (by simp [hs, rank])
        (by simp)

/-! Character references. -/

/-- Going from one state of a reference to another. -/
theorem refGo_ok (m m' : M σ) (c : Option Nat) (st : St) (b : Bool) (h : ∃ e, m.ret = some e ∧ isRet e = true ∧ Need e m)
    (k : Keeps m m') (hr : refSt st = true) (hrank : b = true → rank st c < rank m.st c) (hst : c = none → b = false → st = m.st)
    (hne : st ≠ .charRef ∧ (st = .namedRef → b = true ∧ m.st = .charRef)) : OkR m c (some (go st m', b)) := by
  obtain ⟨e, h1, h2, h3⟩ := h
  refine ⟨_, _, rfl, k.inp, fun _ => ⟨e, k.ret.trans h1, h2, (h3.keeps k : Need e m')⟩, ?_, ?_, ?_, hrank, hst,
    fun x => absurd x hne.1, hne.2⟩
  · simp [go, hr]
  · revert hr; cases st <;> simp [go, endSt, refSt]
  · revert hr; cases st <;> simp [go, refSt]

theorem charRef_ok (S : Sink σ) (m : M σ) (c : Option Nat) (h : Pre m c) (hs : m.st = .charRef) : OkR m c (onCharRef S m c) := by
  have hr := h.ret (by rw [hs]; rfl)
  have k : ∀ l, Keeps m { m with tmp := l } := fun l => ⟨rfl, rfl, rfl, rfl, id⟩
  have hf : OkR m c (flushBack S { m with tmp := [0x26] }) := flushBack_ok S _ m c hr rfl (by rw [hs]; simp [rank])
  cases c with
  | none => exact hf
  | some c =>
    unfold onCharRef
    dsimp only
    split_ifs
    · exact refGo_ok m _ _ .namedRef true hr (k _) rfl (by simp [hs, rank]) (by simp) (by simp [hs])
    · exact refGo_ok m _ _ .numericRef false hr (k _) rfl (by simp) (by simp) (by simp)
    · exact hf

theorem ambiguousAmp_ok (S : Sink σ) (m : M σ) (c : Option Nat) (h : Pre m c) (hs : m.st = .ambiguousAmp) :
    OkR m c (onAmbiguousAmp S m c) := by
  have hr := h.ret (by rw [hs]; rfl)
  have hne : m.st ≠ .afterAttrName ∧ m.st ≠ .charRef ∧ m.st ≠ .namedRef := by rw [hs]; decide
  have hf : OkR m c (reRet m) := reRet_ok m m c hr rfl (by rw [hs]; simp [rank])
  cases c with
  | none => exact hf
  | some c =>
    unfold onAmbiguousAmp
    dsimp only
    split_ifs with h1 h2
    · refine stay_ok m c _ h hne (updAttr_keeps _ m ?_)
      obtain ⟨e, he, hr, hn⟩ := hr
      apply hn.2
      unfold inAttr at h2
      rw [he] at h2
      revert h2
      cases e <;> decide
    · exact stay_ok m c (some (chr S c m)) h hne ⟨_, rfl, rfl, rfl, rfl, rfl, id⟩
    · exact hf
    · exact hf

theorem numericRef_ok (m : M σ) (c : Option Nat) (h : Pre m c) (hs : m.st = .numericRef) : OkR m c (onNumericRef m c) := by
  have hr := h.ret (by rw [hs]; rfl)
  have hf : OkR m c (re .decStart { m with code := 0 }) :=
    refGo_ok m _ c .decStart true hr ⟨rfl, rfl, rfl, rfl, id⟩ rfl (by simp [hs, rank]) (by simp) (by simp)
  cases c with
  | none => exact hf
  | some c =>
    unfold onNumericRef
    dsimp only
    split_ifs
    · exact refGo_ok m _ _ .hexStart false hr ⟨rfl, rfl, rfl, rfl, id⟩ rfl (by simp) (by simp) (by simp)
    · exact hf

theorem hexStart_ok (S : Sink σ) (m : M σ) (c : Option Nat) (h : Pre m c) (hs : m.st = .hexStart) : OkR m c (onHexStart S m c) := by
  have hr := h.ret (by rw [hs]; rfl)
  have hf : OkR m c (flushBack S m) := flushBack_ok S _ m c hr rfl (by rw [hs]; simp [rank])
  cases c with
  | none => exact hf
  | some c =>
    unfold onHexStart
    dsimp only
    split_ifs
    · exact refGo_ok m _ _ .hexRef true hr (Keeps.refl m) rfl (by simp [hs, rank]) (by simp) (by simp)
    · exact hf

theorem decStart_ok (S : Sink σ) (m : M σ) (c : Option Nat) (h : Pre m c) (hs : m.st = .decStart) : OkR m c (onDecStart S m c) := by
  have hr := h.ret (by rw [hs]; rfl)
  have hf : OkR m c (flushBack S m) := flushBack_ok S _ m c hr rfl (by rw [hs]; simp [rank])
  cases c with
  | none => exact hf
  | some c =>
    unfold onDecStart
    dsimp only
    split_ifs
    · exact refGo_ok m _ _ .decRef true hr (Keeps.refl m) rfl (by simp [hs, rank]) (by simp) (by simp)
    · exact hf

theorem hexRef_ok (m : M σ) (c : Option Nat) (h : Pre m c) (hs : m.st = .hexRef) : OkR m c (onHexRef m c) := by
  have hr := h.ret (by rw [hs]; rfl)
  have hf : OkR m c (re .numericEnd m) := refGo_ok m _ c .numericEnd true hr (Keeps.refl m) rfl (by simp [hs, rank]) (by simp) (by simp)
  cases c with
  | none => exact hf
  | some c =>
    unfold onHexRef
    dsimp only
    split_ifs
    all_goals first
      | exact stay_ok m c (some _) h (by rw [hs]; decide) ⟨_, rfl, rfl, rfl, rfl, rfl, id⟩
      | exact refGo_ok m _ _ .numericEnd false hr (Keeps.refl m) rfl (by simp) (by simp) (by simp)
      | exact hf

theorem decRef_ok (m : M σ) (c : Option Nat) (h : Pre m c) (hs : m.st = .decRef) : OkR m c (onDecRef m c) := by
  have hr := h.ret (by rw [hs]; rfl)
  have hf : OkR m c (re .numericEnd m) := refGo_ok m _ c .numericEnd true hr (Keeps.refl m) rfl (by simp [hs, rank]) (by simp) (by simp)
  cases c with
  | none => exact hf
  | some c =>
    unfold onDecRef
    dsimp only
    split_ifs
    · exact stay_ok m c (some _) h (by rw [hs]; decide) ⟨_, rfl, rfl, rfl, rfl, rfl, id⟩
    · exact refGo_ok m _ _ .numericEnd false hr (Keeps.refl m) rfl (by simp) (by simp) (by simp)
    · exact hf

end Verif.Proof.HtmlTok
