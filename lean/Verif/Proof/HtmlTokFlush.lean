import Verif.Proof.HtmlTokRun
/-
The calls that follow one another: `on_emit_code_point` and `flush_code_point` end, and what they do is a sequence of single
steps.
-/
namespace Verif.Proof.HtmlTok
open Verif.Model.HtmlTok Verif.Model.HtmlInput Verif.Model.Infra Verif.Proof.HtmlInput
variable {σ : Type}

theorem run_plain (S : Sink σ) (find : Find) (f : Nat) (m : M σ) (h : special m.st = false) :
    run S find (f + 1) m =
      match next m with
      | none => none
      | some (m1, c) =>
        match act S m.st m1 c with
        | none => none
        | some (m2, false) => some m2
        | some (m2, true) => run S find f { m2 with inp := reconsume m2.inp } := by
  cases hs : m.st <;> first | (rw [hs] at h; cases h; done) | (rw [run]; simp only [hs]; rfl)

theorem mstep_plain (S : Sink σ) (find : Find) (m : M σ) (h : special m.st = false) :
    mstep S find m =
      match next m with
      | none => none
      | some (m1, c) =>
        match act S m.st m1 c with
        | none => none
        | some (m2, false) => some m2
        | some (m2, true) => some { m2 with inp := reconsume m2.inp } := by
  cases hs : m.st <;> first | (rw [hs] at h; cases h; done) | (rw [mstep]; simp only [hs]; rfl)

/-- A waiting state that has not got enough. -/
def Stuck (m : M σ) : Prop :=
  (m.st = .markupDecl ∧ fill m.inp 7 = false) ∨ (m.st = .afterDoctypeName ∧ fill m.inp 6 = false) ∨
    (m.st = .namedRef ∧ fill m.inp 33 = false)

/-- A step follows. -/
structure Ready (m : M σ) : Prop where
  fresh : m.inp.eofConsumed = false
  can : Can m
  free : ¬ Stuck m

/-- Steps, with the states before them. -/
inductive Steps (S : Sink σ) (find : Find) : List (M σ) → M σ → M σ → Prop
  | nil (m) : Steps S find [] m m
  | cons {m m1 m' tr} : Ready m → mstep S find m = some m1 → Good m m1 → Steps S find tr m1 m' → Steps S find (m :: tr) m m'

theorem Steps.append {S : Sink σ} {find : Find} {a b c : M σ} {t u : List (M σ)} (h : Steps S find t a b) (h' : Steps S find u b c) :
    Steps S find (t ++ u) a c := by
  induction h with
  | nil m => exact h'
  | cons r e g _ ih => exact .cons r e g (ih h')

/-- What is needed of the predicate `B` for everything to be defined: single steps keep it, and where it holds the look up of
names is defined. -/
structure Base (S : Sink σ) (find : Find) (B : M σ → Prop) : Prop where
  step : ∀ m m1, B m → Inv m → Ready m → mstep S find m = some m1 → Good m m1 → B m1
  look : ∀ m, B m → Ready m → m.st = .namedRef → ∃ r, find m.inp.c = some r ∧ ∀ n a b, r = some (n, a, b) → n <+: m.inp.c

theorem Steps.base {S : Sink σ} {find : Find} {B : M σ → Prop} (hB : Base S find B) {a b : M σ} {t : List (M σ)} (h : Steps S find t a b)
    (hi : Inv a) (ha : B a) : B b := by
  induction h with
  | nil m => exact ha
  | cons r e g _ ih => exact ih g.inv (hB.step _ _ ha hi r e g)

theorem Steps.inv {S : Sink σ} {find : Find} {a b : M σ} {t : List (M σ)} (h : Steps S find t a b) (hi : Inv a) : Inv b := by
  induction h with
  | nil m => exact hi
  | cons r e g _ ih => exact ih g.inv

theorem Steps.suffix {S : Sink σ} {find : Find} {a b : M σ} {t : List (M σ)} (h : Steps S find t a b) : b.inp.c <:+ a.inp.c := by
  induction h with
  | nil m => exact List.suffix_refl _
  | cons r e g _ ih => exact ih.trans g.suffix

theorem Steps.eof {S : Sink σ} {find : Find} {a b : M σ} {t : List (M σ)} (h : Steps S find t a b) : b.inp.eof = a.inp.eof := by
  induction h with
  | nil m => rfl
  | cons r e g _ ih => exact ih.trans g.eof

theorem Steps.measure {S : Sink σ} {find : Find} {a b : M σ} {t : List (M σ)} (h : Steps S find t a b) :
    measure b + t.length ≤ measure a := by
  induction h with
  | nil m => simp
  | cons r e g _ ih => have := g.less; simp only [List.length_cons]; omega

def NoNum (tr : List (M σ)) : Prop := ∀ x ∈ tr, x.st ≠ .numericEnd

def PostLoop (tr : List (M σ)) (m' : M σ) : Prop :=
  NoNum tr → (m'.inp.c = [] ∧ (m'.inp.eof = true → m'.inp.eofConsumed = true)) ∨ Stuck m'

def PostRun (tr : List (M σ)) (m m' : M σ) : Prop :=
  NoNum tr → ((m'.inp.c = [] ∧ (m'.inp.eof = true → m'.inp.eofConsumed = true)) ∨ Stuck m') ∨
    (special m.st = false ∧ m.inp.c ≠ [] ∧ m'.inp.c = m.inp.c.tail)

def RunOk (B : M σ → Prop) (S : Sink σ) (find : Find) (n : Nat) : Prop :=
  ∀ m : M σ, Inv m → m.inp.eofConsumed = false → Can m → B m → measure m ≤ n →
    ∃ m' tr, (∀ f, 3 * n + 3 ≤ f → run S find f m = some m') ∧ Steps S find tr m m' ∧ PostRun tr m m'

def LoopOk (B : M σ → Prop) (S : Sink σ) (find : Find) (n : Nat) : Prop :=
  ∀ m : M σ, Inv m → B m → measure m ≤ n →
    ∃ m' tr, (∀ f, 3 * n + 4 ≤ f → flushLoop S find f m = some m') ∧ Steps S find tr m m' ∧ PostLoop tr m'

/-- A step that is followed by `flush_code_point`. -/
theorem flush_after (B : M σ → Prop) (S : Sink σ) (find : Find) (hB : Base S find B) (n : Nat) (hL : LoopOk B S find n) (m m1 : M σ)
    (hP : B m) (hi : Inv m) (hr : Ready m) (hs : mstep S find m = some m1) (g : Good m m1) (hf : m1.inp.eofConsumed = false)
    (hn : measure m ≤ n + 1) :
    ∃ m' tr, (∀ f, 3 * n + 5 ≤ f → flush S find f m1 = some m') ∧ Steps S find (m :: tr) m m' ∧ PostLoop (m :: tr) m' := by
  have hl := g.less
  obtain ⟨m', tr, h1, h2, h3⟩ := hL m1 g.inv (hB.step _ _ hP hi hr hs g) (by omega)
  refine ⟨m', tr, ?_, .cons hr hs g h2, ?_⟩
  · intro f hf'
    obtain ⟨f, rfl⟩ : ∃ k, f = k + 1 := ⟨f - 1, by omega⟩
    rw [flush, hf]
    simp only [Bool.false_eq_true, if_false]
    exact h1 f (by omega)
  · exact fun hno => h3 (fun x hx => hno x (List.mem_cons_of_mem _ hx))

theorem not_stuck_of {m : M σ} (a : m.st ≠ .markupDecl) (b : m.st ≠ .afterDoctypeName) (c : m.st ≠ .namedRef) : ¬ Stuck m := by
  rintro (⟨x, _⟩ | ⟨x, _⟩ | ⟨x, _⟩)
  · exact a x
  · exact b x
  · exact c x

theorem measure_ge (m : M σ) (h : m.inp.eofConsumed = false) : 8 ≤ measure m := by
  unfold measure; rw [h]; simp; omega

/-- The bogus DOCTYPE state never asks for more. -/
theorem bogus_run (S : Sink σ) (find : Find) (m : M σ) (x : Nat) (l : List Nat) (hs : m.st = .bogusDoctype) (hb : m.inp.c = x :: l)
    (hf : m.inp.eofConsumed = false) :
    ∃ m', (∀ f, run S find (f + 1) m = some m') ∧ mstep S find m = some m' ∧ m'.inp = { m.inp with c := l, cur := x } ∧
      (m'.st = .bogusDoctype ∨ m'.st = .data) := by
  have hn := next_some m x l hb hf
  have hp : special m.st = false := by rw [hs]; rfl
  have ha : ∃ m', act S m.st { m with inp := { m.inp with c := l, cur := x } } (some x) = some (m', false) ∧
      m'.inp = { m.inp with c := l, cur := x } ∧ (m'.st = .bogusDoctype ∨ m'.st = .data) := by
    rw [hs]
    unfold act onBogusDoctype
    dsimp only
    split_ifs
    · exact ⟨_, rfl, rfl, Or.inr rfl⟩
    all_goals exact ⟨_, rfl, rfl, Or.inl rfl⟩
  obtain ⟨m', e, h1, h2⟩ := ha
  refine ⟨m', fun f => ?_, ?_, h1, h2⟩
  · rw [run_plain S find f m hp, hn]
    dsimp only
    rw [e]
  · rw [mstep_plain S find m hp, hn]
    dsimp only
    rw [e]

theorem run_ok (B : M σ → Prop) (S : Sink σ) (hS : SwitchOk S) (find : Find) (hB : Base S find B) (n : Nat)
    (hR : RunOk B S find n) (hL : LoopOk B S find n) : RunOk B S find (n + 1) := by
  intro m hi hf hc hP hn
  by_cases hst : Stuck m
  · refine ⟨m, [], ?_, .nil m, fun _ => Or.inl (Or.inr hst)⟩
    intro f hf'
    obtain ⟨f, rfl⟩ : ∃ k, f = k + 1 := ⟨f - 1, by omega⟩
    rw [run]
    rcases hst with ⟨a, b⟩ | ⟨a, b⟩ | ⟨a, b⟩
    · simp only [a, b]; rfl
    · simp only [a, b]; rfl
    · simp only [a, b]; rfl
  have hrd : Ready m := ⟨hf, hc, hst⟩
  by_cases h1 : m.st = .markupDecl
  · obtain ⟨m1, e, g⟩ := markup_ok S m h1 hf
    have hfill : fill m.inp 7 = true := by
      by_contra hh
      exact hst (Or.inl ⟨h1, by simpa using hh⟩)
    have hm : mstep S find m = some m1 := by rw [mstep]; simp only [h1]; exact e
    have hf1 : m1.inp.eofConsumed = false := by
      by_contra hh
      exact (g.ended (by simpa using hh)).2.2.1 h1
    obtain ⟨m', tr, a, b, d⟩ := flush_after B S find hB n hL m m1 hP hi hrd hm g hf1 hn
    refine ⟨m', _, ?_, b, fun hno => Or.inl (d hno)⟩
    intro f hf'
    obtain ⟨f, rfl⟩ : ∃ k, f = k + 1 := ⟨f - 1, by omega⟩
    rw [run]
    simp only [h1, hfill, e]
    exact a f (by omega)
  by_cases h2 : m.st = .namedRef
  · obtain ⟨m1, e, g⟩ := namedRef_ok S find m hi h2 (hB.look m hP hrd h2) hf
    have hfill : fill m.inp 33 = true := by
      by_contra hh
      exact hst (Or.inr (Or.inr ⟨h2, by simpa using hh⟩))
    have hm : mstep S find m = some m1 := by rw [mstep]; simp only [h2]; exact e
    have hf1 : m1.inp.eofConsumed = false := by
      by_contra hh
      exact (g.ended (by simpa using hh)).2.2.2.1 h2
    obtain ⟨m', tr, a, b, d⟩ := flush_after B S find hB n hL m m1 hP hi hrd hm g hf1 hn
    refine ⟨m', _, ?_, b, fun hno => Or.inl (d hno)⟩
    intro f hf'
    obtain ⟨f, rfl⟩ : ∃ k, f = k + 1 := ⟨f - 1, by omega⟩
    rw [run]
    simp only [h2, hfill, e]
    exact a f (by omega)
  by_cases h3 : m.st = .numericEnd
  · obtain ⟨m1, e, g⟩ := numericEnd_ok S m hi h3 hf
    have hm : mstep S find m = some m1 := by rw [mstep]; simp only [h3]; exact e
    refine ⟨m1, [m], ?_, .cons hrd hm g (.nil _), fun hno => absurd h3 (hno m (by simp))⟩
    intro f hf'
    obtain ⟨f, rfl⟩ : ∃ k, f = k + 1 := ⟨f - 1, by omega⟩
    rw [run]
    simp only [h3, e]
  by_cases h4 : m.st = .afterDoctypeName
  · have hfill : fill m.inp 6 = true := by
      by_contra hh
      exact hst (Or.inr (Or.inl ⟨h4, by simpa using hh⟩))
    obtain ⟨m1, c, m2, a, e1, e2, post⟩ := afterName_ok S m h4 hf hc
    cases a with
    | done =>
      have hm : mstep S find m = some m2 := by rw [mstep]; simp only [h4, e1, e2]
      refine ⟨m2, [m], ?_, .cons hrd hm post.1 (.nil _), fun _ => Or.inl (Or.inl ⟨(post.1.inv.ended post.2).1, fun _ => post.2⟩)⟩
      intro f hf'
      obtain ⟨f, rfl⟩ : ∃ k, f = k + 1 := ⟨f - 1, by omega⟩
      rw [run]
      simp only [h4, hfill, e1, e2]
      rfl
    | flush =>
      have hm : mstep S find m = some m2 := by rw [mstep]; simp only [h4, e1, e2]
      obtain ⟨m', tr, a, b, d⟩ := flush_after B S find hB n hL m m2 hP hi hrd hm post.1 post.2.1 hn
      refine ⟨m', _, ?_, b, fun hno => Or.inl (d hno)⟩
      intro f hf'
      obtain ⟨f, rfl⟩ : ∃ k, f = k + 1 := ⟨f - 1, by omega⟩
      rw [run]
      simp only [h4, hfill, e1, e2]
      exact a f (by omega)
    | re =>
      obtain ⟨x, l, cur, hb, e3, g⟩ := post
      have hm : mstep S find m = some { m2 with inp := reconsume m2.inp } := by rw [mstep]; simp only [h4, e1, e2]
      generalize hm3 : ({ m2 with inp := reconsume m2.inp } : M σ) = m3 at *
      have s3 : m3.st = .bogusDoctype := by rw [e3]
      have b3 : m3.inp.c = x :: l := by rw [e3]; exact hb
      have f3 : m3.inp.eofConsumed = false := by rw [e3]; exact hf
      obtain ⟨m4, r4, st4, i4, _⟩ := bogus_run S find m3 x l s3 b3 f3
      have hr3 : Ready m3 := ⟨f3, Or.inl (by rw [b3]; simp), not_stuck_of (by rw [s3]; decide) (by rw [s3]; decide) (by rw [s3]; decide)⟩
      have g3 : Good m3 m4 := by
        obtain ⟨k1, kc, k2, kb, q1, q2, q3, _⟩ := plainStep_ok S hS m3 g.inv f3 hr3.can (by rw [s3]; rfl)
        have : mstep S find m3 = some (if kb then { k2 with inp := reconsume k2.inp } else k2) := by
          rw [mstep_plain S find m3 (by rw [s3]; rfl), q1]
          dsimp only
          rw [q2]
          cases kb <;> rfl
        rw [st4] at this
        rw [Option.some.inj this]
        exact q3
      have f4 : m4.inp.eofConsumed = false := by rw [i4]; exact f3
      have hl1 := g.less
      obtain ⟨m', tr, a, b, d⟩ := flush_after B S find hB n hL m3 m4 (hB.step _ _ hP hi hrd hm g) g.inv hr3 st4 g3 f4 (by omega)
      refine ⟨m', m :: m3 :: tr, ?_, .cons hrd hm g b, ?_⟩
      · intro f hf'
        obtain ⟨f, rfl⟩ : ∃ k, f = k + 2 := ⟨f - 2, by omega⟩
        rw [run]
        simp only [h4, hfill, e1, e2, hm3, r4]
        exact a (f + 1) (by omega)
      · exact fun hno => Or.inl (d (fun x hx => hno x (List.mem_cons_of_mem _ hx)))
  have hp : special m.st = false := by
    revert h1 h2 h3 h4; cases m.st <;> simp [special]
  obtain ⟨m1, c, m2, b, q1, q2, q3, q4, q5, q6, q7⟩ := plainStep_ok S hS m hi hf hc hp
  have hm : mstep S find m = some (if b then { m2 with inp := reconsume m2.inp } else m2) := by
    rw [mstep_plain S find m hp, q1]
    dsimp only
    rw [q2]
    cases b <;> rfl
  cases b with
  | false =>
    refine ⟨m2, [m], ?_, .cons hrd hm q3 (.nil _), ?_⟩
    · intro f hf'
      obtain ⟨f, rfl⟩ : ∃ k, f = k + 1 := ⟨f - 1, by omega⟩
      rw [run_plain S find f m hp, q1]
      dsimp only
      rw [q2]
    · intro _
      by_cases hcn : c = none
      · have he : m2.inp.eofConsumed = true := by rw [q4 rfl]; exact q5 hcn
        exact Or.inl (Or.inl ⟨(q3.inv.ended he).1, fun _ => he⟩)
      · refine Or.inr ⟨hp, (q6 hcn).2.1, ?_⟩
        rw [q4 rfl]
        exact (q6 hcn).2.2
  | true =>
    have hl := q3.less
    have hq := q7 rfl
    simp only [if_true] at q3 hm hl
    obtain ⟨m', tr, a, b, d⟩ := hR _ q3.inv hq.2 (by
      rcases hc with hc | hc
      · exact Or.inl (by rw [hq.1]; exact hc)
      · exact Or.inr (q3.eof.trans hc)) (hB.step _ _ hP hi hrd hm q3) (by omega)
    refine ⟨m', _, ?_, .cons hrd hm q3 b, ?_⟩
    · intro f hf'
      obtain ⟨f, rfl⟩ : ∃ k, f = k + 1 := ⟨f - 1, by omega⟩
      rw [run_plain S find f m hp, q1]
      dsimp only
      rw [q2]
      exact a f (by omega)
    · intro hno
      rcases d (fun x hx => hno x (List.mem_cons_of_mem _ hx)) with y | ⟨_, y1, y2⟩
      · exact Or.inl y
      · rw [hq.1] at y1 y2
        exact Or.inr ⟨hp, y1, y2⟩

theorem loop_ok (B : M σ → Prop) (S : Sink σ) (find : Find) (hB : Base S find B) (n : Nat)
    (hR : RunOk B S find (n + 1)) (hL : LoopOk B S find n) : LoopOk B S find (n + 1) := by
  intro m hi hP hn
  by_cases hb : m.inp.c = []
  · by_cases he : (m.inp.eof && !m.inp.eofConsumed) = true
    · have he1 : m.inp.eof = true := by revert he; cases m.inp.eof <;> simp
      have he2 : m.inp.eofConsumed = false := by revert he; cases m.inp.eofConsumed <;> simp
      obtain ⟨m', tr, a, b, d⟩ := hR m hi he2 (Or.inr he1) hP hn
      refine ⟨m', tr, ?_, b, ?_⟩
      · intro f hf
        obtain ⟨f, rfl⟩ : ∃ k, f = k + 1 := ⟨f - 1, by omega⟩
        rw [flushLoop, if_pos hb, if_pos he]
        exact a f (by omega)
      · intro hno
        rcases d hno with x | ⟨_, x, _⟩
        · exact x
        · exact absurd hb x
    · refine ⟨m, [], ?_, .nil m, ?_⟩
      · intro f hf
        obtain ⟨f, rfl⟩ : ∃ k, f = k + 1 := ⟨f - 1, by omega⟩
        rw [flushLoop, if_pos hb, if_neg he]
      · intro _
        refine Or.inl ⟨hb, fun x => ?_⟩
        rw [x] at he
        simpa using he
  · have hf : m.inp.eofConsumed = false := by
      by_contra hh
      exact hb (hi.ended (by simpa using hh)).1
    obtain ⟨m1, tr, a, b, d⟩ := hR m hi hf (Or.inl hb) hP hn
    by_cases hl : m.inp.c.length = m1.inp.c.length
    · refine ⟨m1, tr, ?_, b, ?_⟩
      · intro f hf'
        obtain ⟨f, rfl⟩ : ∃ k, f = k + 1 := ⟨f - 1, by omega⟩
        rw [flushLoop, if_neg hb, a f (by omega)]
        dsimp only
        rw [if_pos hl]
      · intro hno
        rcases d hno with x | ⟨_, x, y⟩
        · exact x
        · have : 0 < m.inp.c.length := List.length_pos_iff.mpr x
          rw [y, List.length_tail] at hl
          omega
    · have hms := b.measure
      have htr : 0 < tr.length := by
        cases b with
        | nil => exact absurd rfl hl
        | cons => simp
      obtain ⟨m2, tr2, a2, b2, d2⟩ := hL m1 (b.inv hi) (b.base hB hi hP) (by omega)
      refine ⟨m2, tr ++ tr2, ?_, b.append b2, ?_⟩
      · intro f hf'
        obtain ⟨f, rfl⟩ : ∃ k, f = k + 1 := ⟨f - 1, by omega⟩
        rw [flushLoop, if_neg hb, a f (by omega)]
        dsimp only
        rw [if_neg hl]
        exact a2 f (by omega)
      · intro hno
        exact d2 (fun x hx => hno x (List.mem_append_right _ hx))

theorem all_ok (B : M σ → Prop) (S : Sink σ) (hS : SwitchOk S) (find : Find) (hB : Base S find B) (n : Nat) :
    RunOk B S find n ∧ LoopOk B S find n := by
  induction n with
  | zero =>
    constructor
    · intro m _ hf _ _ hn
      have := measure_ge m hf
      omega
    · intro m hi _ hn
      have hf : m.inp.eofConsumed = true := by
        by_contra hh
        have := measure_ge m (by simpa using hh)
        omega
      have he := hi.ended hf
      refine ⟨m, [], ?_, .nil m, fun _ => Or.inl ⟨he.1, fun _ => hf⟩⟩
      intro f hf'
      obtain ⟨f, rfl⟩ : ∃ k, f = k + 1 := ⟨f - 1, by omega⟩
      rw [flushLoop, if_pos he.1, hf]
      simp
  | succ n ih =>
    have := run_ok B S hS find hB n ih.1 ih.2
    exact ⟨this, loop_ok B S find hB n this ih.2⟩

end Verif.Proof.HtmlTok
