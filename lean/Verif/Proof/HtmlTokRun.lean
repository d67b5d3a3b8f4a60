import Verif.Proof.HtmlTokAct
import Verif.Proof.HtmlInput
/-
Single steps of the tokenizer: they are defined, keep the invariant and make progress.
-/
namespace Verif.Proof.HtmlTok
open Verif.Model.HtmlTok Verif.Model.HtmlInput Verif.Model.Infra Verif.Proof.HtmlInput
variable {σ : Type}

/-- One call of a state function, with what `reconsume` does to the input, but without the calls that follow. -/
def mstep (S : Sink σ) (find : Find) (m : M σ) : Option (M σ) :=
  match m.st with
  | .markupDecl => markupDecl S m
  | .namedRef => namedRef S find m
  | .numericEnd => onNumericEnd S m
  | .afterDoctypeName =>
    match next m with
    | none => none
    | some (m, c) =>
      match afterDoctypeName S m c with
      | none => none
      | some (m, .re) => some { m with inp := reconsume m.inp }
      | some (m, _) => some m
  | st =>
    match next m with
    | none => none
    | some (m, c) =>
      match act S st m c with
      | none => none
      | some (m, false) => some m
      | some (m, true) => some { m with inp := reconsume m.inp }

/-- What holds between the calls. -/
structure Inv (m : M σ) : Prop where
  ret : refSt m.st = true → ∃ e, m.ret = some e ∧ isRet e = true ∧ Need e m
  need : refSt m.st = false → Need m.st m
  endk : endSt m.st = true → m.kind = 3
  after : m.st = .afterAttrName → hasAttr m ∨ m.inp.c.head? = some 0x2F ∨ m.inp.c.head? = some 0x3E ∨ (m.inp.c = [] ∧ m.inp.eof = true)
  ended : m.inp.eofConsumed = true → m.inp.c = [] ∧ m.inp.eof = true ∧ m.st ≠ .markupDecl ∧ m.st ≠ .namedRef ∧ m.st ≠ .numericEnd

/-- Something can be consumed. -/
def Can (m : M σ) : Prop := m.inp.c ≠ [] ∨ m.inp.eof = true

def measure (m : M σ) : Nat := 8 * m.inp.c.length + (if m.inp.eofConsumed then 0 else 8) + rank m.st m.inp.c.head?

theorem rank_le (st : St) (c : Option Nat) : rank st c ≤ 4 := by
  cases st <;> simp only [rank] <;> first | omega | (split_ifs <;> omega)

theorem next_some (m : M σ) (c : Nat) (l : List Nat) (h : m.inp.c = c :: l) (hf : m.inp.eofConsumed = false) :
    next m = some ({ m with inp := { m.inp with c := l, cur := c } }, some c) := by
  simp [next, consume, h, hf]

theorem next_none (m : M σ) (h : m.inp.c = []) (he : m.inp.eof = true) :
    next m = some ({ m with inp := { m.inp with eofConsumed := true } }, none) := by
  simp [next, consume, h, he]

theorem skip_eq (n : Nat) (m : M σ) (h : n ≤ m.inp.c.length) :
    ∃ cur, skip n m = some { m with inp := { m.inp with c := m.inp.c.drop n, cur := cur } } := by
  suffices H : ∀ (n : Nat) (s : Stream), n ≤ s.c.length → ∃ cur, consumeN s n = some { s with c := s.c.drop n, cur := cur } by
    obtain ⟨cur, e⟩ := H n m.inp h
    exact ⟨cur, by unfold skip; rw [e]⟩
  intro n
  induction n with
  | zero => intro s _; exact ⟨s.cur, by simp [consumeN]⟩
  | succ n ih =>
    intro s h
    cases hc : s.c with
    | nil => simp [hc] at h
    | cons c cs =>
      obtain ⟨cur, e⟩ := ih { s with c := cs, cur := c } (by simp [hc] at h; simpa using h)
      exact ⟨cur, by simp [consumeN, consume, hc, e]⟩

theorem matchLoop_length (ci : Bool) (label cs : List Nat) (h : matchLoop ci label cs = true) : label.length ≤ cs.length := by
  have := ((matchLoop_iff ci label cs).mp h).length_le
  simpa using this

/-- What a step achieves. -/
structure Good (m m' : M σ) : Prop where
  inv : Inv m'
  less : measure m' < measure m
  suffix : m'.inp.c <:+ m.inp.c
  eof : m'.inp.eof = m.inp.eof
  ended : m'.inp.eofConsumed = true → m.inp.c = [] ∧ m.inp.eof = true ∧ m.st ≠ .markupDecl ∧ m.st ≠ .namedRef ∧ m.st ≠ .numericEnd
  amp : m'.st = .charRef → m.inp.c = 0x26 :: m'.inp.c
  named : m'.st = .namedRef → m.st = .charRef ∧ m'.inp.c = m.inp.c

/-- Consuming makes the measure small. -/
theorem less_drop {m m' : M σ} (hl : m'.inp.c.length < m.inp.c.length) (he : m'.inp.eofConsumed = m.inp.eofConsumed) :
    measure m' < measure m := by
  unfold measure
  rw [he]
  have := rank_le m'.st m'.inp.c.head?
  omega

theorem plainStep_ok (S : Sink σ) (hS : SwitchOk S) (m : M σ) (h : Inv m) (hf : m.inp.eofConsumed = false) (hc : Can m)
    (hsp : special m.st = false) :
    ∃ m1 c m2 b, next m = some (m1, c) ∧ act S m.st m1 c = some (m2, b) ∧
      Good m (if b then { m2 with inp := reconsume m2.inp } else m2) ∧
      (b = false → m2.inp = m1.inp) ∧ (c = none → m1.inp.eofConsumed = true) ∧
      (c ≠ none → m1.inp.eofConsumed = false ∧ m.inp.c ≠ [] ∧ m1.inp.c = m.inp.c.tail) ∧
      (b = true → (reconsume m2.inp).c = m.inp.c ∧ (reconsume m2.inp).eofConsumed = false) := by
  cases hb : m.inp.c with
  | nil =>
    have he : m.inp.eof = true := by
      rcases hc with hc | hc
      · exact absurd hb hc
      · exact hc
    have hn := next_none m hb he
    obtain ⟨m2, b, e, ok⟩ := act_ok S hS { m with inp := { m.inp with eofConsumed := true } } none
      ⟨h.ret, h.need, h.endk, fun _ => Or.inr (Or.inr (Or.inr rfl))⟩ hsp
    refine ⟨_, none, m2, b, hn, e, ?_, fun _ => ok.inp, fun _ => rfl, fun x => absurd rfl x, ?_⟩
    · cases b with
      | false =>
        have hst : m2.st = m.st := ok.stay rfl rfl
        have hspec : m.st ≠ .markupDecl ∧ m.st ≠ .namedRef ∧ m.st ≠ .numericEnd := by
          refine ⟨?_, ?_, ?_⟩ <;> intro hh <;> rw [hh] at hsp <;> cases hsp
        refine ⟨⟨ok.ret, ok.need, ok.endk, ?_, ?_⟩, ?_, ?_, ?_, ?_, fun x => (by cases (ok.amp x).2), fun x => (by cases (ok.named x).1)⟩
        · intro _; rw [if_neg Bool.false_ne_true, ok.inp]; exact Or.inr (Or.inr (Or.inr ⟨hb, he⟩))
        · intro _; rw [if_neg Bool.false_ne_true, ok.inp, hst]; exact ⟨hb, he, hspec⟩
        · unfold measure; rw [if_neg Bool.false_ne_true, ok.inp, hst]; simp [hf]
        · rw [if_neg Bool.false_ne_true, ok.inp]; exact List.suffix_refl _
        · rw [if_neg Bool.false_ne_true, ok.inp]
        · intro _; exact ⟨hb, he, hspec⟩
      | true =>
        have hi : reconsume m2.inp = m.inp := by
          rw [ok.inp]
          simp [reconsume]
          rw [← hf]
        refine ⟨⟨ok.ret, ok.need, ok.endk, ?_, ?_⟩, ?_, ?_, ?_, ?_, fun x => (by cases (ok.amp x).1),
          fun x => ⟨(ok.named x).2, by simp only [if_true, hi]⟩⟩
        · intro _; exact Or.inr (Or.inr (Or.inr ⟨by simp [hi, hb], by simp [hi, he]⟩))
        · simp [hi, hf]
        · unfold measure
          simp only [if_true, hi]
          have := ok.rank rfl
          rw [hb]
          simp only [List.head?_nil]
          have e2 : rank ({ m with inp := { m.inp with eofConsumed := true } } : M σ).st none = rank m.st none := rfl
          omega
        · simp [hi]
        · simp [hi]
        · simp [hi, hf]
    · rintro rfl
      rw [ok.inp]
      simp [reconsume, hb]
  | cons x l =>
    have hn := next_some m x l hb hf
    obtain ⟨m2, b, e, ok⟩ := act_ok S hS { m with inp := { m.inp with c := l, cur := x } } (some x)
      ⟨h.ret, h.need, h.endk, by
        intro hs
        rcases h.after hs with a | a | a | a
        · exact Or.inl a
        · rw [hb] at a; exact Or.inr (Or.inl a)
        · rw [hb] at a; exact Or.inr (Or.inr (Or.inl a))
        · rw [hb] at a; exact absurd a.1 (by simp)⟩ hsp
    refine ⟨_, some x, m2, b, hn, e, ?_, fun _ => ok.inp, fun x => (by cases x), fun _ => ⟨hf, by simp, by simp⟩, ?_⟩
    · cases b with
      | false =>
        refine ⟨⟨ok.ret, ok.need, ok.endk, ?_, ?_⟩, ?_, ?_, ?_, ?_, fun y => ?_, fun x => (by cases (ok.named x).1)⟩
        · intro hs
          rcases ok.after hs with a | a | a
          · exact Or.inl a
          · exact absurd a.1 (by simp)
          · cases a
        · rw [if_neg Bool.false_ne_true, ok.inp]; intro x; rw [hf] at x; cases x
        · apply less_drop
          · rw [if_neg Bool.false_ne_true, ok.inp, hb]; simp
          · rw [if_neg Bool.false_ne_true, ok.inp]
        · rw [if_neg Bool.false_ne_true, ok.inp, hb]; exact List.suffix_cons _ _
        · rw [if_neg Bool.false_ne_true, ok.inp]
        · rw [if_neg Bool.false_ne_true, ok.inp]; intro x; rw [hf] at x; cases x
        · have := Option.some.inj (ok.amp y).2
          rw [if_neg Bool.false_ne_true, ok.inp, hb, this]
      | true =>
        have hi : reconsume m2.inp = { m.inp with cur := x } := by
          rw [ok.inp]
          simp only [reconsume, hf]
          simp [hb]
        refine ⟨⟨ok.ret, ok.need, ok.endk, ?_, ?_⟩, ?_, ?_, ?_, ?_, fun x => (by cases (ok.amp x).1),
          fun x => ⟨(ok.named x).2, by simp only [if_true, hi]⟩⟩
        · intro hs
          simp only [if_true, hi, hb]
          rcases ok.after hs with a | a | a
          · exact Or.inl a
          · rcases a.2 with a | a <;> simp [a]
          · cases a
        · simp [hi, hf]
        · unfold measure
          simp only [if_true, hi]
          have := ok.rank rfl
          rw [hb]
          simp only [List.head?_cons]
          have e2 : rank ({ m with inp := { m.inp with c := l, cur := x } } : M σ).st (some x) = rank m.st (some x) := rfl
          omega
        · simp [hi]
        · simp [hi]
        · simp [hi, hf]
    · rintro rfl
      rw [ok.inp]
      simp [reconsume, hf]

/-- The branches of the markup declaration open state. -/
theorem markup_cases (S : Sink σ) (m : M σ) :
    (∃ cur, matchLoop false dashStr m.inp.c = true ∧ markupDecl S m =
      some (go .commentStart (newComment [] { m with inp := { m.inp with c := m.inp.c.drop 2, cur := cur } }))) ∨
    (∃ cur, matchLoop false dashStr m.inp.c = false ∧ matchLoop true doctypeStr m.inp.c = true ∧ markupDecl S m =
      some (go .doctype { m with inp := { m.inp with c := m.inp.c.drop 7, cur := cur } })) ∨
    (∃ cur, matchLoop false dashStr m.inp.c = false ∧ matchLoop true doctypeStr m.inp.c = false ∧
      matchLoop false cdataStr m.inp.c = true ∧ markupDecl S m =
      some (if S.node m.sink = some true then go .cdata { m with inp := { m.inp with c := m.inp.c.drop 7, cur := cur } }
        else go .bogusComment (newComment cdataStr { m with inp := { m.inp with c := m.inp.c.drop 7, cur := cur } }))) ∨
    (matchLoop false dashStr m.inp.c = false ∧ matchLoop true doctypeStr m.inp.c = false ∧
      matchLoop false cdataStr m.inp.c = false ∧ markupDecl S m = some (go .bogusComment (newComment [] m))) := by
  unfold markupDecl matchLabel
  simp only [Bool.false_eq_true, if_false]
  cases h1 : matchLoop false dashStr m.inp.c with
  | true =>
    obtain ⟨cur, e⟩ := skip_eq 2 m (matchLoop_length _ _ _ h1)
    exact Or.inl ⟨cur, rfl, by simp only [e]; rfl⟩
  | false =>
    cases h2 : matchLoop true doctypeStr m.inp.c with
    | true =>
      obtain ⟨cur, e⟩ := skip_eq 7 m (matchLoop_length _ _ _ h2)
      exact Or.inr (Or.inl ⟨cur, rfl, rfl, by simp only [e]; rfl⟩)
    | false =>
      cases h3 : matchLoop false cdataStr m.inp.c with
      | true =>
        obtain ⟨cur, e⟩ := skip_eq 7 m (matchLoop_length _ _ _ h3)
        exact Or.inr (Or.inr (Or.inl ⟨cur, rfl, rfl, rfl, by simp only [e]; rfl⟩))
      | false => exact Or.inr (Or.inr (Or.inr ⟨rfl, rfl, rfl, rfl⟩))

theorem markup_ok (S : Sink σ) (m : M σ) (hs : m.st = .markupDecl) (hf : m.inp.eofConsumed = false) :
    ∃ m', markupDecl S m = some m' ∧ Good m m' := by
  have key : ∀ m' : M σ, (m'.st = .commentStart ∨ m'.st = .doctype ∨ m'.st = .cdata ∨ m'.st = .bogusComment) →
      m'.inp.c <:+ m.inp.c → m'.inp.eof = m.inp.eof → m'.inp.eofConsumed = false →
      (m'.inp.c.length < m.inp.c.length ∨ (m'.inp.c = m.inp.c ∧ m'.st = .bogusComment)) → Good m m' := by
    intro m' hst hsu he hec hl
    refine ⟨⟨?_, ?_, ?_, ?_, ?_⟩, ?_, hsu, he, ?_, ?_, ?_⟩
    · intro h; rcases hst with e | e | e | e <;> rw [e] at h <;> cases h
    · intro _; rcases hst with e | e | e | e <;> rw [e] <;> exact ⟨fun x => (by cases x), fun x => (by cases x)⟩
    · intro h; rcases hst with e | e | e | e <;> rw [e] at h <;> cases h
    · intro h; rcases hst with e | e | e | e <;> rw [e] at h <;> cases h
    · intro h; rw [hec] at h; cases h
    · rcases hl with hl | ⟨hl, e⟩
      · exact less_drop hl (hec.trans hf.symm)
      · unfold measure; rw [hl, e, hs, hec, hf]; simp [rank]
    · intro h; rw [hec] at h; cases h
    all_goals
      intro h; rcases hst with e | e | e | e <;> rw [e] at h <;> cases h
  rcases markup_cases S m with ⟨cur, h, e⟩ | ⟨cur, _, h, e⟩ | ⟨cur, _, _, h, e⟩ | ⟨_, _, _, e⟩
  · have hl := matchLoop_length _ _ _ h
    simp only [dashStr, List.length_cons, List.length_nil] at hl
    exact ⟨_, e, key _ (Or.inl rfl) (List.drop_suffix _ _) rfl hf (Or.inl (by simp [go, newComment]; omega))⟩
  · have hl := matchLoop_length _ _ _ h
    simp only [doctypeStr, List.length_cons, List.length_nil] at hl
    exact ⟨_, e, key _ (Or.inr (Or.inl rfl)) (List.drop_suffix _ _) rfl hf (Or.inl (by simp [go]; omega))⟩
  · have hl := matchLoop_length _ _ _ h
    simp only [cdataStr, List.length_cons, List.length_nil] at hl
    refine ⟨_, e, ?_⟩
    split_ifs
    · exact key _ (Or.inr (Or.inr (Or.inl rfl))) (List.drop_suffix _ _) rfl hf (Or.inl (by simp [go]; omega))
    · exact key _ (Or.inr (Or.inr (Or.inr rfl))) (List.drop_suffix _ _) rfl hf (Or.inl (by simp [go, newComment]; omega))
  · exact ⟨_, e, key _ (Or.inr (Or.inr (Or.inr rfl))) (List.suffix_refl _) rfl hf (Or.inr ⟨rfl, rfl⟩)⟩

/-- Coming back to the return state. -/
theorem back_good (m m1 : M σ) (e : St) (he : isRet e = true) (hn : Need e m1) (hsu : m1.inp.c <:+ m.inp.c)
    (heof : m1.inp.eof = m.inp.eof) (hec : m1.inp.eofConsumed = false) (hf : m.inp.eofConsumed = false)
    (hr : 0 < rank m.st m.inp.c.head?) : Good m (go e m1) := by
  refine ⟨⟨?_, ?_, ?_, ?_, ?_⟩, ?_, hsu, heof, ?_, ?_, ?_⟩
  · intro h; revert he h; cases e <;> simp [go, refSt, isRet]
  · exact fun _ => hn
  · intro h; revert he h; cases e <;> simp [go, endSt, isRet]
  · intro h; revert he h; cases e <;> simp [go, isRet]
  · intro h; simp [go, hec] at h
  · by_cases hl : m1.inp.c.length < m.inp.c.length
    · exact less_drop hl (hec.trans hf.symm)
    · have hlen : m1.inp.c = m.inp.c := hsu.eq_of_length_le (by omega)
      have : rank e m1.inp.c.head? = 0 := by revert he; cases e <;> simp [rank, isRet]
      unfold measure
      simp only [go, hec, hf, hlen] at this ⊢
      omega
  · intro h; simp [go, hec] at h
  all_goals
    intro h; revert he h; cases e <;> simp [go, isRet]

theorem numericEnd_ok (S : Sink σ) (m : M σ) (h : Inv m) (hs : m.st = .numericEnd) (hf : m.inp.eofConsumed = false) :
    ∃ m', onNumericEnd S m = some m' ∧ Good m m' := by
  obtain ⟨e, h1, h2, h3⟩ := h.ret (by rw [hs]; rfl)
  obtain ⟨m1, e1, k1⟩ := flushRef_keeps S { m with code := codePoint m.code, tmp := [codePoint m.code] } ⟨e, h1, h2, h3⟩
  unfold onNumericEnd
  dsimp only
  rw [e1]
  dsimp only
  rw [k1.ret]
  dsimp only
  rw [h1]
  refine ⟨_, rfl, back_good m m1 e h2 ?_ ?_ ?_ ?_ hf ?_⟩
  · exact h3.keeps (m' := m1) ⟨k1.inp, k1.st, k1.ret, k1.kind, k1.attr⟩
  · rw [k1.inp]; exact List.suffix_refl _
  · rw [k1.inp]
  · rw [k1.inp]; exact hf
  · rw [hs]; simp [rank]

theorem namedRef_ok (S : Sink σ) (find : Find) (m : M σ) (h : Inv m) (hs : m.st = .namedRef)
    (hF : ∃ r, find m.inp.c = some r ∧ ∀ n a b, r = some (n, a, b) → n <+: m.inp.c) (hf : m.inp.eofConsumed = false) : ∃ m', namedRef S find m = some m' ∧ Good m m' := by
  obtain ⟨e, h1, h2, h3⟩ := h.ret (by rw [hs]; rfl)
  obtain ⟨r, hr, hp⟩ := hF
  unfold namedRef
  rw [hr]
  cases r with
  | none =>
    obtain ⟨m1, e1, k1⟩ := flushRef_keeps S m ⟨e, h1, h2, h3⟩
    dsimp only
    rw [e1]
    refine ⟨_, rfl, ⟨?_, ?_, ?_, ?_, ?_⟩, ?_, ?_, ?_, ?_, fun x => (by cases x), fun x => (by cases x)⟩
    · exact fun _ => ⟨e, k1.ret.trans h1, h2, (h3.keeps k1 : Need e m1)⟩
    · intro x; cases x
    · intro x; cases x
    · intro x; cases x
    · intro x; simp [go, k1.inp, hf] at x
    · simp [measure, go, k1.inp, hs, rank]
    · simp [go, k1.inp]
    · simp [go, k1.inp]
    · intro x; simp [go, k1.inp, hf] at x
  | some r =>
    obtain ⟨name, a, b⟩ := r
    have hpre := hp name a b rfl
    dsimp only
    obtain ⟨cur, e2⟩ := skip_eq name.length { m with tmp := m.tmp ++ name } hpre.length_le
    rw [e2]
    dsimp only
    have hsu : m.inp.c.drop name.length <:+ m.inp.c := List.drop_suffix _ _
    generalize hm2 : (match m.inp.c.drop name.length with
      | c :: _ => if inAttr ({ m with tmp := m.tmp ++ name, inp := { m.inp with c := m.inp.c.drop name.length, cur := cur } } : M σ) &&
            name.getLast? != some 0x3B && (c == 0x3D || isAsciiAlphanumeric c)
          then ({ m with tmp := m.tmp ++ name, inp := { m.inp with c := m.inp.c.drop name.length, cur := cur } } : M σ)
          else { m with tmp := if b ≠ 0 then [a, b] else [a], inp := { m.inp with c := m.inp.c.drop name.length, cur := cur } }
      | [] => { m with tmp := if b ≠ 0 then [a, b] else [a], inp := { m.inp with c := m.inp.c.drop name.length, cur := cur } }) = m2
    have hm : ∃ t, m2 = { m with tmp := t, inp := { m.inp with c := m.inp.c.drop name.length, cur := cur } } := by
      rw [← hm2]
      split
      · split_ifs <;> exact ⟨_, rfl⟩
      · exact ⟨_, rfl⟩
    obtain ⟨t, rfl⟩ := hm
    obtain ⟨m3, e3, k3⟩ := flushRef_keeps S
      { m with tmp := t, inp := { m.inp with c := m.inp.c.drop name.length, cur := cur } } ⟨e, h1, h2, h3⟩
    have hgoal : ∃ m', (match flushRef S ({ m with tmp := t, inp := { m.inp with c := m.inp.c.drop name.length, cur := cur } } : M σ) with
      | none => none
      | some m =>
        match m.ret with
        | none => none
        | some st => some (go st m)) = some m' ∧ Good m m' := by
      rw [e3]
      dsimp only
      rw [k3.ret]
      dsimp only
      rw [h1]
      refine ⟨_, rfl, back_good m m3 e h2 ?_ ?_ ?_ ?_ hf ?_⟩
      · exact Need.keeps (m := { m with tmp := t, inp := { m.inp with c := m.inp.c.drop name.length, cur := cur } }) h3 k3
      · rw [k3.inp]; exact hsu
      · rw [k3.inp]
      · rw [k3.inp]; exact hf
      · rw [hs]; simp [rank]
    obtain ⟨m', e', g⟩ := hgoal
    refine ⟨m', ?_, g⟩
    rw [← e', ← hm2]
    rfl

/-- The branches of the after DOCTYPE name state. -/
theorem afterName_cases (S : Sink σ) (m : M σ) (c : Nat) :
    (ws c = true ∧ afterDoctypeName S m (some c) = some (m, .flush)) ∨
    (ws c = false ∧ c = 0x3E ∧ afterDoctypeName S m (some c) = some (emitDoctype S (go .data m), .flush)) ∨
    (∃ cur, ws c = false ∧ c ≠ 0x3E ∧ matchLabel m.inp publicStr true true = some true ∧ 5 ≤ m.inp.c.length ∧
      afterDoctypeName S m (some c) =
        some (go .afterPublicKw { m with inp := { m.inp with c := m.inp.c.drop 5, cur := cur } }, .flush)) ∨
    (∃ cur, ws c = false ∧ c ≠ 0x3E ∧ matchLabel m.inp publicStr true true = some false ∧
      matchLabel m.inp systemStr true true = some true ∧ 5 ≤ m.inp.c.length ∧
      afterDoctypeName S m (some c) =
        some (go .afterSystemKw { m with inp := { m.inp with c := m.inp.c.drop 5, cur := cur } }, .flush)) ∨
    (ws c = false ∧ c ≠ 0x3E ∧ matchLabel m.inp publicStr true true = some false ∧
      matchLabel m.inp systemStr true true = some false ∧ afterDoctypeName S m (some c) = some (go .bogusDoctype (quirks m), .re)) := by
  have hlen : ∀ x l, matchLabel m.inp (x :: l) true true = some true → l.length ≤ m.inp.c.length := by
    intro x l h
    unfold matchLabel at h
    simp only [if_true] at h
    split at h
    · cases h
    · simp only [Option.some.injEq] at h
      exact matchLoop_length _ _ _ h
  have hdef : ∀ x l, ∃ b, matchLabel m.inp (x :: l) true true = some b := by
    intro x l
    unfold matchLabel
    simp only [if_true]
    split
    · exact ⟨_, rfl⟩
    · exact ⟨_, rfl⟩
  unfold afterDoctypeName
  dsimp only
  by_cases hw : ws c = true
  · exact Or.inl ⟨hw, by rw [if_pos hw]⟩
  · have hw' : ws c = false := by simpa using hw
    rw [if_neg hw]
    by_cases h3 : c = 0x3E
    · exact Or.inr (Or.inl ⟨hw', h3, by rw [if_pos h3]⟩)
    · rw [if_neg h3]
      obtain ⟨b1, e1⟩ := hdef 0x70 [0x75, 0x62, 0x6C, 0x69, 0x63]
      obtain ⟨b2, e2⟩ := hdef 0x73 [0x79, 0x73, 0x74, 0x65, 0x6D]
      have e1' : matchLabel m.inp publicStr true true = some b1 := e1
      have e2' : matchLabel m.inp systemStr true true = some b2 := e2
      rw [e1', e2']
      cases b1 with
      | true =>
        have hl := hlen _ _ e1
        obtain ⟨cur, e⟩ := skip_eq 5 m hl
        exact Or.inr (Or.inr (Or.inl ⟨cur, hw', h3, rfl, hl, by simp only [e]; rfl⟩))
      | false =>
        cases b2 with
        | true =>
          have hl := hlen _ _ e2
          obtain ⟨cur, e⟩ := skip_eq 5 m hl
          exact Or.inr (Or.inr (Or.inr (Or.inl ⟨cur, hw', h3, rfl, rfl, hl, by simp only [e]; rfl⟩)))
        | false => exact Or.inr (Or.inr (Or.inr (Or.inr ⟨hw', h3, rfl, rfl, rfl⟩)))

/-- The state is outside of tags and looks at nothing. -/
theorem free_good (m m' : M σ) (hst : freeSt m'.st = true) (ha : attrSt m'.st = false) (he : endSt m'.st = false)
    (hne : m'.st ≠ .afterAttrName) (hr : refSt m'.st = false) (hsu : m'.inp.c <:+ m.inp.c) (heof : m'.inp.eof = m.inp.eof)
    (hec : m'.inp.eofConsumed = false) (hless : measure m' < measure m) : Good m m' :=
  ⟨⟨fun x => (by rw [hr] at x; cases x), fun _ => ⟨fun x => (by rw [hst] at x; cases x), fun x => (by rw [ha] at x; cases x)⟩,
    fun x => (by rw [he] at x; cases x), fun x => absurd x hne, fun x => (by rw [hec] at x; cases x)⟩, hless, hsu, heof,
    fun x => (by rw [hec] at x; cases x), fun x => (by rw [x] at hr; cases hr), fun x => (by rw [x] at hr; cases hr)⟩

theorem afterName_ok (S : Sink σ) (m : M σ) (hs : m.st = .afterDoctypeName) (hf : m.inp.eofConsumed = false) (hc : Can m) :
    ∃ m1 c m2 a, next m = some (m1, c) ∧ afterDoctypeName S m1 c = some (m2, a) ∧
      match a with
      | .done => Good m m2 ∧ m2.inp.eofConsumed = true
      | .flush => Good m m2 ∧ m2.inp.eofConsumed = false ∧ m2.inp.c.length < m.inp.c.length
      | .re => ∃ x l cur, m.inp.c = x :: l ∧
          ({ m2 with inp := reconsume m2.inp } : M σ) = { m with inp := { m.inp with cur := cur }, dt := { m.dt with quirks := true }, st := .bogusDoctype } ∧
          Good m { m2 with inp := reconsume m2.inp } := by
  cases hb : m.inp.c with
  | nil =>
    have he : m.inp.eof = true := by
      rcases hc with hc | hc
      · exact absurd hb hc
      · exact hc
    refine ⟨_, _, _, _, next_none m hb he, rfl, ⟨⟨?_, ?_, ?_, ?_, ?_⟩, ?_, ?_, ?_, ?_, ?_, ?_⟩, rfl⟩
    · intro x; simp [emitEof, emitDoctype, quirks, emit, hs, refSt] at x
    · intro x; simp [emitEof, emitDoctype, quirks, emit, hs, Need, freeSt, attrSt]
    · intro x; simp [emitEof, emitDoctype, quirks, emit, hs, endSt] at x
    · intro x; simp [emitEof, emitDoctype, quirks, emit, hs] at x
    · intro x; simp [emitEof, emitDoctype, quirks, emit, hs, hb, he]
    · simp [measure, emitEof, emitDoctype, quirks, emit, hf]
    · simp [emitEof, emitDoctype, quirks, emit]
    · simp [emitEof, emitDoctype, quirks, emit]
    · intro x; simp [hs, hb, he]
    · intro x; simp [emitEof, emitDoctype, quirks, emit, hs] at x
    · intro x; simp [emitEof, emitDoctype, quirks, emit, hs] at x
  | cons x l =>
    have hn := next_some m x l hb hf
    have hlt : l.length < m.inp.c.length := by rw [hb]; simp
    rcases afterName_cases S { m with inp := { m.inp with c := l, cur := x } } x with
      ⟨_, e⟩ | ⟨_, _, e⟩ | ⟨cur, _, _, _, hl, e⟩ | ⟨cur, _, _, _, _, hl, e⟩ | ⟨_, _, _, _, e⟩
    · refine ⟨_, _, _, _, hn, e, ?_, hf, by simp⟩
      refine free_good m _ ?_ ?_ ?_ ?_ ?_ ?_ ?_ ?_ ?_ <;> first
        | exact less_drop hlt rfl
        | simp [hs, hb, hf, freeSt, attrSt, endSt, refSt]
    · refine ⟨_, _, _, _, hn, e, ?_, hf, by simp [emitDoctype, emit, go]⟩
      refine free_good m _ rfl rfl rfl (by simp [emitDoctype, emit, go]) rfl ?_ rfl hf (less_drop hlt rfl)
      simp [emitDoctype, emit, go, hb]
    · have hd : (l.drop 5).length < m.inp.c.length := by simp; omega
      refine ⟨_, _, _, _, hn, e, ?_, hf, by rw [← hb]; exact hd⟩
      refine free_good m _ rfl rfl rfl (by simp [go]) rfl ?_ rfl hf (less_drop hd rfl)
      rw [hb]
      exact (List.drop_suffix _ _).trans (List.suffix_cons _ _)
    · have hd : (l.drop 5).length < m.inp.c.length := by simp; omega
      refine ⟨_, _, _, _, hn, e, ?_, hf, by rw [← hb]; exact hd⟩
      refine free_good m _ rfl rfl rfl (by simp [go]) rfl ?_ rfl hf (less_drop hd rfl)
      rw [hb]
      exact (List.drop_suffix _ _).trans (List.suffix_cons _ _)
    · refine ⟨_, _, _, _, hn, e, x, l, x, rfl, ?_, ?_⟩
      · simp [go, quirks, reconsume, hf, hb]
      · refine free_good m _ rfl rfl rfl (by simp [go, quirks]) rfl ?_ ?_ ?_ ?_
        · simp [go, quirks, reconsume, hf, hb]
        · simp [go, quirks, reconsume, hf]
        · simp [go, quirks, reconsume, hf]
        · simp [measure, go, quirks, reconsume, hf, hb, hs, rank]

end Verif.Proof.HtmlTok
