import Verif.Proof.HtmlTokFlush
import Verif.Props.HtmlInput
/-
Whole texts: pushing code points and the end of the file. `Rel` describes relations between the text that is still to come and
the tokenizer that all single steps keep.
-/
namespace Verif.Proof.HtmlTok
open Verif.Model.HtmlTok Verif.Model.HtmlInput Verif.Model.Infra Verif.Proof.HtmlInput
open Verif.Spec.HtmlInput (delivered)
open Verif.Spec.Infra (normNL)
variable {σ : Type}

/-- The tokenizer with a code point appended to its input. -/
def feed1 (c : Nat) (m : M σ) : M σ := { m with inp := { m.inp with c := m.inp.c ++ [c] } }

def atEof (m : M σ) : M σ := { m with inp := { m.inp with eof := true } }

/-- A predicate on the text that is still to come and the tokenizer, kept by whatever happens, under which everything is defined. -/
structure Text (S : Sink σ) (find : Find) (B : List Nat → M σ → Prop) : Prop where
  base : ∀ l, Base S find (B l)
  push : ∀ c l m, B (c :: l) m → m.inp.eof = false → B l (feed1 c m)
  eof : ∀ m, B [] m → m.inp.eof = false → B [] (atEof m)

/-- What is needed besides if the text ends in a carriage return. -/
structure Late (B : List Nat → M σ → Prop) : Prop where
  again : ∀ m : M σ, B [] m → B [] { m with inp := { m.inp with eofConsumed := false } }

structure Rel (B : List Nat → M σ → Prop) (S : Sink σ) (find : Find) (R : List Nat → M σ → Prop) : Prop where
  step : ∀ l m m1, R l m → Inv m → B l m → Ready m → mstep S find m = some m1 → Good m m1 → R l m1
  push : ∀ c l m, R (c :: l) m → m.inp.eof = false → R l (feed1 c m)
  eof : ∀ m, R [] m → m.inp.eof = false → R [] (atEof m)

theorem Rel.steps {B : List Nat → M σ → Prop} {S : Sink σ} {find : Find} {R : List Nat → M σ → Prop} (hR : Rel B S find R)
    (hB : Text S find B) {l : List Nat} {tr : List (M σ)} {a b : M σ} (h : Steps S find tr a b) (ha : R l a) (hi : Inv a) (hP : B l a) :
    R l b ∧ ∀ x ∈ tr, R l x := by
  induction h with
  | nil m => exact ⟨ha, by simp⟩
  | cons r e g _ ih =>
    have := ih (hR.step _ _ _ ha hi hP r e g) g.inv ((hB.base l).step _ _ hP hi r e g)
    exact ⟨this.1, fun x hx => by
      rcases List.mem_cons.mp hx with rfl | hx
      · exact ha
      · exact this.2 x hx⟩

/-- Between the pushes. -/
structure Quiet (B : M σ → Prop) (m : M σ) : Prop where
  inv : Inv m
  fresh : m.inp.eofConsumed = false
  open' : m.inp.eof = false
  base : B m

theorem feed1_inv {m : M σ} (c : Nat) (h : Inv m) (hf : m.inp.eofConsumed = false) (he : m.inp.eof = false) : Inv (feed1 c m) := by
  refine ⟨h.ret, h.need, h.endk, ?_, ?_⟩
  · intro hs
    rcases h.after hs with a | a | a | a
    · exact Or.inl a
    · right; left
      cases hb : m.inp.c with
      | nil => rw [hb] at a; cases a
      | cons x l => rw [hb] at a; simp [feed1, hb]; simpa using a
    · right; right; left
      cases hb : m.inp.c with
      | nil => rw [hb] at a; cases a
      | cons x l => rw [hb] at a; simp [feed1, hb]; simpa using a
    · rw [he] at a; exact absurd a.2 (by simp)
  · intro x
    have : m.inp.eofConsumed = true := x
    rw [hf] at this; cases this

theorem atEof_inv {m : M σ} (h : Inv m) : Inv (atEof m) := by
  refine ⟨h.ret, h.need, h.endk, ?_, ?_⟩
  · intro hs
    rcases h.after hs with a | a | a | a
    · exact Or.inl a
    · exact Or.inr (Or.inl a)
    · exact Or.inr (Or.inr (Or.inl a))
    · exact Or.inr (Or.inr (Or.inr ⟨a.1, rfl⟩))
  · intro x
    have := h.ended x
    exact ⟨this.1, rfl, this.2.2⟩

theorem measure_le (m : M σ) : measure m ≤ 8 * m.inp.c.length + 12 := by
  unfold measure
  have := rank_le m.st m.inp.c.head?
  split_ifs <;> omega

/-- Nothing is left to do, but possibly to wait. -/
def Idle (m : M σ) : Prop := m.inp.c = [] ∨ (special m.st = true ∧ Stuck m)

theorem stuck_special {m : M σ} (h : Stuck m) : special m.st = true := by
  rcases h with ⟨h, _⟩ | ⟨h, _⟩ | ⟨h, _⟩ <;> rw [h] <;> rfl

section
variable (B : List Nat → M σ → Prop) (S : Sink σ) (hS : SwitchOk S) (find : Find) (hB : Text S find B)
  (R : List Nat → M σ → Prop) (hR : Rel B S find R)
include hS hB hR

theorem push_ok (l : List Nat) (c : Nat) (m : M σ) (hq : Quiet (B (c :: l)) m) :
    ∃ m', (∀ f, 24 * (m.inp.c.length + 1) + 39 ≤ f → push S find f c m = some m') ∧ Quiet (B l) m' ∧
      m'.inp.c.length ≤ m.inp.c.length + 1 ∧ (R (c :: l) m → R l m') ∧
      ((∀ l m, R l m → m.st ≠ .numericEnd) → R (c :: l) m → Idle m → Idle m') := by
  have hi := feed1_inv c hq.inv hq.fresh hq.open'
  have hcs : B l (feed1 c m) := hB.push c l m hq.base hq.open'
  have hm := measure_le (feed1 c m)
  have hl : (feed1 c m).inp.c.length = m.inp.c.length + 1 := by simp [feed1]
  obtain ⟨m', tr, h1, h2, h3⟩ := (all_ok (B l) S hS find (hB.base l) (8 * (m.inp.c.length + 1) + 12)).1 (feed1 c m) hi hq.fresh
    (Or.inl (by simp [feed1])) hcs (by omega)
  have he : m'.inp.eof = false := h2.eof.trans hq.open'
  refine ⟨m', fun f hf => h1 f (by omega), ⟨h2.inv hi, ?_, he, h2.base (hB.base l) hi hcs⟩, ?_, ?_, ?_⟩
  · by_contra hh
    have := ((h2.inv hi).ended (by simpa using hh)).2.1
    rw [he] at this; cases this
  · have := h2.suffix.length_le
    omega
  · intro r
    exact (hR.steps hB h2 (hR.push c l m r hq.open') hi hcs).1
  · intro hn r hid
    have hno : NoNum tr := fun x hx => hn _ _ ((hR.steps hB h2 (hR.push c l m r hq.open') hi hcs).2 x hx)
    rcases h3 hno with (⟨a, _⟩ | a) | ⟨a1, _, a3⟩
    · exact Or.inl a
    · exact Or.inr ⟨stuck_special a, a⟩
    · rcases hid with b | ⟨b, _⟩
      · left
        rw [a3]
        simp [feed1, b]
      · exact absurd a1 (by rw [show (feed1 c m).st = m.st from rfl, b]; simp)

theorem pushAll_ok (l r : List Nat) (m : M σ) (hq : Quiet (B (r ++ l)) m) :
    ∃ m', (∀ f, 24 * (m.inp.c.length + r.length) + 39 ≤ f → pushAll S find f r m = some m') ∧ Quiet (B l) m' ∧
      m'.inp.c.length ≤ m.inp.c.length + r.length ∧ (R (r ++ l) m → R l m') ∧
      ((∀ l m, R l m → m.st ≠ .numericEnd) → R (r ++ l) m → Idle m → Idle m') := by
  induction r generalizing m with
  | nil => exact ⟨m, fun _ _ => rfl, hq, by simp, fun h => h, fun _ _ h => h⟩
  | cons c r ih =>
    obtain ⟨m1, a1, a2, a3, a4, a5⟩ := push_ok B S hS find hB R hR (r ++ l) c m hq
    obtain ⟨m2, b1, b2, b3, b4, b5⟩ := ih m1 a2
    refine ⟨m2, ?_, b2, ?_, fun h => b4 (a4 h), fun hn h hid => b5 hn (a4 h) (a5 hn h hid)⟩
    · intro f hf
      simp only [List.length_cons] at hf
      rw [Verif.Model.HtmlTok.pushAll, a1 f (by omega)]
      exact b1 f (by omega)
    · simp only [List.length_cons]; omega

/-- What is still to be delivered. -/
def coming (cr : Bool) (l : List Nat) : List Nat := delivered (Verif.Model.HtmlInput.pushAll cr l)

omit hS hB hR in
theorem emits_eq (es : List Event) : es.filterMap emitOf = delivered es := by
  induction es with
  | nil => rfl
  | cons e es ih => cases e <;> simp [delivered, emitOf, ih, List.filterMap_cons]

omit hS hB hR in
theorem coming_cons (cr : Bool) (cp : Nat) (l : List Nat) :
    coming cr (cp :: l) = delivered (pushCodePoint cr cp).2 ++ coming (pushCodePoint cr cp).1 l := by
  unfold coming
  rw [Verif.Model.HtmlInput.pushAll, delivered_append]

theorem feed_ok (l : List Nat) (cr : Bool) (m : M σ) (hq : Quiet (B (coming cr l)) m) (N : Nat)
    (hN : m.inp.c.length + l.length + (if cr then 1 else 0) ≤ N) :
    ∃ cr' m', (∀ f, 24 * N + 39 ≤ f → feed S find f cr l m = some (cr', m')) ∧ Quiet (B (coming cr' [])) m' ∧
      m'.inp.c.length + (if cr' then 1 else 0) ≤ N ∧ (R (coming cr l) m → R (coming cr' []) m') ∧
      ((∀ l m, R l m → m.st ≠ .numericEnd) → R (coming cr l) m → Idle m → Idle m') ∧
      (cr' = if l = [] then cr else decide (l.getLast? = some 13)) := by
  induction l generalizing m cr with
  | nil => exact ⟨cr, m, fun _ _ => rfl, hq, by simpa using hN, fun h => h, fun _ _ h => h, rfl⟩
  | cons cp l ih =>
    have hlen : (delivered (pushCodePoint cr cp).2).length + (if (pushCodePoint cr cp).1 then 1 else 0) ≤ 1 + (if cr then 1 else 0) := by
      rw [push_delivered, push_state]
      by_cases h : cp = 13
      · cases cr <;> simp [h]
      · cases cr <;> simp [h] <;> split_ifs <;> simp
    obtain ⟨m1, a1, a2, a3, a4, a5⟩ :=
      pushAll_ok B S hS find hB R hR (coming (pushCodePoint cr cp).1 l) (delivered (pushCodePoint cr cp).2) m (by rw [← coming_cons]; exact hq)
    obtain ⟨cr', m2, b1, b2, b3, b4, b5, b6⟩ := ih (pushCodePoint cr cp).1 m1 a2
      (by simp only [List.length_cons] at hN; omega)
    refine ⟨cr', m2, ?_, b2, b3, ?_, ?_, ?_⟩
    · intro f hf
      rw [feed, emits_eq, a1 f (by simp only [List.length_cons] at hN; omega)]
      exact b1 f hf
    · rw [coming_cons]
      exact fun h => b4 (a4 h)
    · rw [coming_cons]
      exact fun hn h hid => b5 hn (a4 h) (a5 hn h hid)
    · rw [b6, push_state]
      cases l with
      | nil => simp
      | cons y l => simp

omit hS hB hR in
theorem run_congr (f : Nat) (m m' : M σ) (hst : m'.st = m.st) (he : m.inp.eof = true) (he' : m'.inp.eof = true) (hn : next m = next m')
    (h3 : m.st ≠ .markupDecl) (h4 : m.st ≠ .namedRef) (h5 : m.st ≠ .numericEnd) : run S find f m = run S find f m' := by
  cases f with
  | zero => rw [run, run]
  | succ f =>
    by_cases hd : m.st = .afterDoctypeName
    · rw [run, run]
      simp only [hst, hd, hn, fill, he, he', Bool.true_or, Bool.not_true, Bool.false_eq_true, if_false]
    · have hp : special m.st = false := by revert h3 h4 h5 hd; cases m.st <;> simp [special]
      rw [run_plain S find f m hp, run_plain S find f m' (by rw [hst]; exact hp), hn, hst]

omit hS hB hR in
/-- Calling the state function again after the end of the file has been consumed. -/
theorem run_again (f : Nat) (m : M σ) (h : Inv m) (he : m.inp.eofConsumed = true) :
    run S find f m = run S find f { m with inp := { m.inp with eofConsumed := false } } := by
  obtain ⟨h1, h2, h3, h4, h5⟩ := h.ended he
  refine run_congr S find f m _ rfl h2 h2 ?_ h3 h4 h5
  rw [next_none m h1 h2, next_none { m with inp := { m.inp with eofConsumed := false } } h1 h2]

theorem lastRun_ok (m : M σ) (hlate : m.inp.eofConsumed = true → Late B) (hi : Inv m) (he : m.inp.eof = true) (hc : B [] m) (N : Nat) (hN : m.inp.c.length ≤ N) :
    ∃ m', (∀ f, 24 * N + 39 ≤ f → run S find f m = some m') ∧
      (m.inp.eofConsumed = false → R [] m → R [] m' ∧
        ((∀ l m, R l m → m.st ≠ .numericEnd) → (m.inp.c = [] ∨ special m.st = true) → m'.inp.eofConsumed = true)) := by
  by_cases hf : m.inp.eofConsumed = true
  · have hm := measure_le ({ m with inp := { m.inp with eofConsumed := false } } : M σ)
    dsimp only at hm
    obtain ⟨m', tr, h1, h2, h3⟩ := (all_ok (B []) S hS find (hB.base []) (8 * N + 12)).1 { m with inp := { m.inp with eofConsumed := false } }
      ⟨hi.ret, hi.need, hi.endk, hi.after, fun x => (by cases x)⟩ rfl (Or.inr he) ((hlate hf).again m hc) (hm.trans (by omega))
    refine ⟨m', fun f hf' => ?_, fun x => absurd hf (by rw [x]; simp)⟩
    rw [run_again S find f m hi hf]
    exact h1 f (by omega)
  · have hf : m.inp.eofConsumed = false := by simpa using hf
    have hm := measure_le m
    obtain ⟨m', tr, h1, h2, h3⟩ := (all_ok (B []) S hS find (hB.base []) (8 * N + 12)).1 m hi hf (Or.inr he) hc (by omega)
    refine ⟨m', fun f hf' => h1 f (by omega), fun _ r => ⟨(hR.steps hB h2 r hi hc).1, ?_⟩⟩
    intro hn hid
    have hno : NoNum tr := fun x hx => hn _ _ ((hR.steps hB h2 r hi hc).2 x hx)
    have he' : m'.inp.eof = true := h2.eof.trans he
    rcases h3 hno with (⟨_, a⟩ | a) | ⟨a1, a2, _⟩
    · exact a he'
    · exfalso
      rcases a with ⟨_, b⟩ | ⟨_, b⟩ | ⟨_, b⟩ <;> simp [fill, he'] at b
    · rcases hid with b | b
      · exact absurd b a2
      · rw [a1] at b; cases b

theorem pushEof_ok (cr : Bool) (hlate : cr = true → Late B) (m : M σ) (hq : Quiet (B (coming cr [])) m) (N : Nat) (hN : m.inp.c.length + (if cr then 1 else 0) ≤ N) :
    ∃ m', (∀ f, 24 * N + 39 ≤ f → Verif.Model.HtmlTok.pushEof S find f cr m = some m') ∧
      (cr = false → R [] m → R [] m' ∧ ((∀ l m, R l m → m.st ≠ .numericEnd) → Idle m → m'.inp.eofConsumed = true)) := by
  cases cr with
  | false =>
    obtain ⟨m', h1, h2⟩ := lastRun_ok B S hS find hB R hR (atEof m)
      (fun x => (by rw [show (atEof m).inp.eofConsumed = m.inp.eofConsumed from rfl, hq.fresh] at x; cases x))
      (atEof_inv hq.inv) rfl (hB.eof m (show B [] m from hq.base) hq.open') N (by simpa [atEof] using hN)
    refine ⟨m', fun f hf => ?_, fun _ r => ?_⟩
    · exact h1 f hf
    · have := h2 hq.fresh (hR.eof m r hq.open')
      refine ⟨this.1, fun hn hid => this.2 hn ?_⟩
      rcases hid with a | a
      · exact Or.inl a
      · exact Or.inr a.1
  | true =>
    have hN' : m.inp.c.length + 1 ≤ N := by simpa using hN
    have hi : Inv (atEof (feed1 10 m)) := atEof_inv (feed1_inv 10 hq.inv hq.fresh hq.open')
    have hcs : B [] (atEof (feed1 10 m)) := hB.eof _ (hB.push 10 [] m (show B [10] m from hq.base) hq.open') hq.open'
    have hm := measure_le (atEof (feed1 10 m))
    have hl : (atEof (feed1 10 m)).inp.c.length = m.inp.c.length + 1 := by simp [atEof, feed1]
    obtain ⟨m1, tr, h1, h2, _⟩ := (all_ok (B []) S hS find (hB.base []) (8 * N + 12)).1 (atEof (feed1 10 m)) hi hq.fresh (Or.inr rfl) hcs (by omega)
    have hsl := h2.suffix.length_le
    obtain ⟨m2, g1, _⟩ := lastRun_ok B S hS find hB R hR m1 (fun _ => hlate rfl) (h2.inv hi) h2.eof (h2.base (hB.base []) hi hcs) N (by omega)
    refine ⟨m2, fun f hf => ?_, fun x => (by cases x)⟩
    unfold Verif.Model.HtmlTok.pushEof
    dsimp only
    rw [if_pos rfl]
    have e1 : push S find f 0xA (atEof m) = some m1 := h1 f (by omega)
    unfold atEof at e1
    rw [e1]
    exact g1 f hf

theorem tokenize_ok (s : σ) (l : List Nat) (hlate : l.getLast? = some 13 → Late B) (hb : B (normNL l) (init s)) :
    ∃ m, (∀ f, 24 * l.length + 39 ≤ f → tokenize S find f s l = some m) ∧
      (l.getLast? ≠ some 13 → R (normNL l) (init s) → R [] m ∧
        ((∀ l m, R l m → m.st ≠ .numericEnd) → m.inp.eofConsumed = true)) := by
  have hcm : coming false l = normNL l := Verif.Props.HtmlInput.C53_newlines l
  have hq : Quiet (B (coming false l)) (init s) := by
    refine ⟨⟨?_, ?_, ?_, ?_, ?_⟩, rfl, rfl, hcm ▸ hb⟩ <;> simp [init, refSt, Need, freeSt, attrSt, endSt]
  obtain ⟨cr, m1, a1, a2, a3, a4, a5, a6⟩ := feed_ok B S hS find hB R hR l false (init s) hq l.length (by simp [init])
  obtain ⟨m2, b1, b2⟩ := pushEof_ok B S hS find hB R hR cr (fun q => hlate (by
    rw [a6] at q
    split_ifs at q
    simpa using q)) m1 a2 l.length a3
  refine ⟨m2, fun f hf => ?_, fun hl r => ?_⟩
  · unfold tokenize
    rw [a1 f hf]
    exact b1 f hf
  · have hcr : cr = false := by
      rw [a6]
      split_ifs
      · rfl
      · simpa using hl
    rw [hcm] at a4 a5
    have r1 := a4 r
    rw [hcr] at r1
    have r2 : R [] m1 := r1
    have := b2 hcr r2
    exact ⟨this.1, fun hn => this.2 hn (a5 hn r (Or.inl rfl))⟩

end

/-- All the characters of the text satisfy `P`. -/
def Chars (P : Nat → Prop) (l : List Nat) (m : M σ) : Prop := (∀ c ∈ m.inp.c, P c) ∧ ∀ c ∈ l, P c

theorem chars_push {P : Nat → Prop} {c : Nat} {l : List Nat} {m : M σ} (h : Chars P (c :: l) m) : Chars P l (feed1 c m) := by
  refine ⟨fun x hx => ?_, fun x hx => h.2 x (by simp [hx])⟩
  simp only [feed1, List.mem_append, List.mem_singleton] at hx
  rcases hx with hx | rfl
  · exact h.1 x hx
  · exact h.2 x (by simp)

theorem chars_text (P : Nat → Prop) (S : Sink σ) (find : Find) (hF : FindOk P find) : Text S find (Chars P) where
  base l := ⟨fun m m1 h _ _ _ g => ⟨fun c hc => h.1 c (g.suffix.subset hc), h.2⟩, fun m h _ _ => hF _ h.1⟩
  push c l m h _ := chars_push h
  eof m h _ := h

theorem chars_late (P : Nat → Prop) : Late (Chars (σ := σ) P) where
  again m h := h

@[elab_as_elim]
theorem nl_induct {Q : List Nat → Prop} (nil : Q []) (crlf : ∀ s, Q s → Q (13 :: 10 :: s))
    (cr : ∀ s, s.head? ≠ some 10 → Q s → Q (13 :: s)) (other : ∀ c s, c ≠ 13 → Q s → Q (c :: s)) (l : List Nat) : Q l := by
  match l with
  | [] => exact nil
  | c :: s =>
    by_cases hc : c = 13
    · subst hc
      match s with
      | [] => exact cr [] (by simp) nil
      | d :: s =>
        by_cases hd : d = 10
        · subst hd
          exact crlf s (nl_induct nil crlf cr other s)
        · exact cr (d :: s) (by simpa using hd) (nl_induct nil crlf cr other (d :: s))
    · exact other c s hc (nl_induct nil crlf cr other s)

theorem normNL_chars {P : Nat → Prop} (h10 : P 10) {l : List Nat} (h : ∀ c ∈ l, P c) : ∀ c ∈ normNL l, P c := by
  induction l using nl_induct with
  | nil => simp [normNL]
  | crlf s ih => simp_all [normNL]
  | cr s hs ih => rw [Verif.Proof.Infra.normNL_cr s hs]; simp_all
  | other c s hc ih => rw [Verif.Proof.Infra.normNL_cons c s hc]; simp_all

theorem chars_start {P : Nat → Prop} (h10 : P 10) (s : σ) {l : List Nat} (h : ∀ c ∈ l, P c) : Chars P (normNL l) (init s) :=
  ⟨fun c hc => (by cases hc), normNL_chars h10 h⟩

end Verif.Proof.HtmlTok
