import Verif.Proof.StreamCoders
/- `text_decoder::decode` call by call. -/
namespace Verif.Proof.StreamApi
open Verif.Model.Coder Verif.Model.Legacy Verif.Model.TextDecoder Verif.Proof.CoderRun Verif.Proof.Utf8Coder
open Verif.Proof.Stream Verif.Proof.StreamCoders

/-! ### Serialization -/

/-- The text left and the flag after `serialize_io_queue`. -/
def ser (utf ig seen : Bool) (t : List Nat) : List Nat × Bool :=
  if utf = true ∧ ig = false ∧ seen = false then
    match t with
    | [] => ([], false)
    | v :: t => (if v = 0xFEFF then t else v :: t, true)
  else (t, seen)

theorem serialize_seen (utf ig seen : Bool) (h : ¬ (utf = true ∧ ig = false ∧ seen = false)) (t : List Nat) :
    serialize utf ig seen (outAt t true) = some (t, seen) := by
  induction t with
  | nil => rfl
  | cons v t ih =>
    have : outAt (v :: t) true = .val v :: outAt t true := by simp [outAt]
    rw [this, serialize, if_neg h, ih]; rfl

theorem serialize_eq (utf ig seen : Bool) (t : List Nat) :
    serialize utf ig seen (outAt t true) = some (ser utf ig seen t) := by
  by_cases h : utf = true ∧ ig = false ∧ seen = false
  · unfold ser
    rw [if_pos h]
    cases t with
    | nil => obtain ⟨_, _, rfl⟩ := h; rfl
    | cons v t =>
      have : outAt (v :: t) true = .val v :: outAt t true := by simp [outAt]
      rw [this, serialize, if_pos h]
      dsimp only
      rw [serialize_seen utf ig true (by simp)]
      split <;> rfl
  · rw [serialize_seen _ _ _ h]; unfold ser; rw [if_neg h]

theorem ser_append (utf ig seen : Bool) (a b : List Nat) :
    (ser utf ig seen (a ++ b)).1 = (ser utf ig seen a).1 ++ (ser utf ig (ser utf ig seen a).2 b).1 := by
  by_cases h : utf = true ∧ ig = false ∧ seen = false
  · obtain ⟨rfl, rfl, rfl⟩ := h
    cases a with
    | nil => simp [ser]
    | cons v a => simp [ser]; split <;> simp
  · have e : ∀ t, ser utf ig seen t = (t, seen) := fun t => by unfold ser; rw [if_neg h]
    simp [e]

/-! ### Feeding -/

section
variable {σ : Type} {run : Run σ} {inv : σ → Prop} {W : Nat} {φ : σ → Nat}

def FeedOk (run : Run σ) (mode : Mode) (st : σ) (b t : List Nat) (st2 : σ) : Prop :=
  ∃ rs, Feeds run st b rs st2 ∧ Quiet mode rs ∧ t = outs false mode rs

def FeedThrow (run : Run σ) (mode : Mode) (st : σ) (b : List Nat) : Prop :=
  mode = .fatal ∧ ∃ rs, ((∃ st2, Feeds run st b rs st2) ∨ Fails run st b rs) ∧ ∃ r ∈ rs, ∃ cp, r = .error cp

def FeedUb (run : Run σ) (mode : Mode) (st : σ) (b : List Nat) : Prop := ∃ rs, Fails run st b rs ∧ Quiet mode rs

theorem quiet_or (mode : Mode) (rs : List Res) : Quiet mode rs ∨ (mode = .fatal ∧ ∃ r ∈ rs, ∃ cp, r = .error cp) := by
  by_cases h : Quiet mode rs
  · exact Or.inl h
  · unfold Quiet at h
    push Not at h
    obtain ⟨h1, r, h2, cp, h3⟩ := h
    exact Or.inr ⟨h1, r, h2, cp, h3⟩

theorem Quiet.append {mode : Mode} {rs rs' : List Res} (h : Quiet mode rs) (h' : Quiet mode rs') : Quiet mode (rs ++ rs') := by
  rcases h with h | h
  · exact Or.inl h
  · rcases h' with h' | h'
    · exact Or.inl h'
    · refine Or.inr (fun r hr => ?_)
      rcases List.mem_append.mp hr with hr | hr
      · exact h r hr
      · exact h' r hr

theorem feed_cases (p : Progress run inv W φ) (mode : Mode) (st : σ) (hi : inv st) (b : List Nat) :
    (∃ t st2, FeedOk run mode st b t st2 ∧ inv st2) ∨ FeedThrow run mode st b ∨ FeedUb run mode st b := by
  rcases total p _ st b hi (Nat.le_refl _) with ⟨rs, st2, f, i2⟩ | ⟨rs, f⟩
  · rcases quiet_or mode rs with q | ⟨q1, q2⟩
    · exact Or.inl ⟨_, st2, ⟨rs, f, q, rfl⟩, i2⟩
    · exact Or.inr (Or.inl ⟨q1, rs, Or.inl ⟨st2, f⟩, q2⟩)
  · rcases quiet_or mode rs with q | ⟨q1, q2⟩
    · exact Or.inr (Or.inr ⟨rs, f, q⟩)
    · exact Or.inr (Or.inl ⟨q1, rs, Or.inr f, q2⟩)

theorem FeedOk.ok {mode : Mode} {st st2 st3 : σ} {a b t t' : List Nat} (h : FeedOk run mode st a t st2)
    (h' : FeedOk run mode st2 b t' st3) : FeedOk run mode st (a ++ b) (t ++ t') st3 := by
  obtain ⟨rs, f, q, rfl⟩ := h
  obtain ⟨rs', f', q', rfl⟩ := h'
  exact ⟨rs ++ rs', f.append f', Quiet.append q q', by simp [outs]⟩

theorem FeedOk.throw {mode : Mode} {st st2 : σ} {a b t : List Nat} (h : FeedOk run mode st a t st2)
    (h' : FeedThrow run mode st2 b) : FeedThrow run mode st (a ++ b) := by
  obtain ⟨rs, f, _, _⟩ := h
  obtain ⟨m, rs', f', r, hr, e⟩ := h'
  refine ⟨m, rs ++ rs', ?_, r, by simp [hr], e⟩
  rcases f' with ⟨st3, f'⟩ | f'
  · exact Or.inl ⟨st3, f.append f'⟩
  · exact Or.inr (f.append_fails f')

theorem FeedOk.ub {mode : Mode} {st st2 : σ} {a b t : List Nat} (h : FeedOk run mode st a t st2)
    (h' : FeedUb run mode st2 b) : FeedUb run mode st (a ++ b) := by
  obtain ⟨rs, f, q, _⟩ := h
  obtain ⟨rs', f', q'⟩ := h'
  exact ⟨rs ++ rs', f.append_fails f', Quiet.append q q'⟩

theorem feeds_inv (p : Progress run inv W φ) {st st2 : σ} {b : List Nat} {rs : List Res} (h : Feeds run st b rs st2)
    (hi : inv st) : inv st2 := by
  induction h with
  | nil => exact hi
  | step h1 _ _ ih =>
    obtain ⟨_, _, _, i, _⟩ := p.step _ _ _ _ _ hi h1
    exact ih i

theorem FeedThrow.more (p : Progress run inv W φ) {mode : Mode} {st : σ} {a : List Nat} (hi : inv st)
    (h : FeedThrow run mode st a) (b : List Nat) : FeedThrow run mode st (a ++ b) := by
  obtain ⟨m, rs, f, r, hr, e⟩ := h
  rcases f with ⟨st2, f⟩ | f
  · rcases total p _ st2 b (feeds_inv p f hi) (Nat.le_refl _) with ⟨rs', st3, f', _⟩ | ⟨rs', f'⟩
    · exact ⟨m, rs ++ rs', Or.inl ⟨st3, f.append f'⟩, r, by simp [hr], e⟩
    · exact ⟨m, rs ++ rs', Or.inr (f.append_fails f'), r, by simp [hr], e⟩
  · exact ⟨m, rs, Or.inr (f.append b), r, hr, e⟩

theorem FeedUb.more {mode : Mode} {st : σ} {a : List Nat} (h : FeedUb run mode st a) (b : List Nat) :
    FeedUb run mode st (a ++ b) := by
  obtain ⟨rs, f, q⟩ := h
  exact ⟨rs, f.append b, q⟩

/-! ### The end of the stream -/

inductive End
  | fine | throws | ub

/-- How flushing a state ends. -/
def Flushes (run : Run σ) (mode : Mode) (st : σ) (x : End) : Prop :=
  ∀ fuel, 2 ≤ fuel → ∀ o, match x with
    | .fine => ∃ st2 q2, loop run mode false fuel st (qq []) (outAt o true) = .stop (some (st2, q2, outAt o true))
    | .throws => loop run mode false fuel st (qq []) (outAt o true) = .stop none
    | .ub => loop run mode false fuel st (qq []) (outAt o true) = .ub

theorem flush_cases (p : Progress run inv W φ) (fatal : Bool) (st : σ) (hi : inv st) :
    ∃ x, Flushes run (if fatal then .fatal else .replacement) st x := by
  cases hr : run st .eoq with
  | none =>
    refine ⟨.ub, fun fuel hf o => ?_⟩
    obtain ⟨k, rfl⟩ : ∃ k, fuel = k + 1 := ⟨fuel - 1, by omega⟩
    dsimp only
    rw [loop, read_nil]
    simp [processItem, hr]
  | some y =>
    obtain ⟨r, st', pre⟩ := y
    rcases p.flush st r st' pre hi hr with rfl | ⟨⟨cp, rfl⟩, hp, st2, h2⟩
    · refine ⟨.fine, fun fuel hf o => ?_⟩
      obtain ⟨k, rfl⟩ : ∃ k, fuel = k + 1 := ⟨fuel - 1, by omega⟩
      refine ⟨st', prepend (qq []) pre, ?_⟩
      rw [loop, read_nil]
      simp [processItem, hr, push_eoq]
    · cases fatal with
      | true =>
        refine ⟨.throws, fun fuel hf o => ?_⟩
        obtain ⟨k, rfl⟩ : ∃ k, fuel = k + 1 := ⟨fuel - 1, by omega⟩
        dsimp only
        rw [if_pos rfl, loop, read_nil]
        simp [processItem, hr]
      | false =>
        refine ⟨.fine, fun fuel hf o => ?_⟩
        obtain ⟨k, rfl⟩ : ∃ k, fuel = k + 1 + 1 := ⟨fuel - 2, by omega⟩
        dsimp only
        rw [if_neg (by simp), loop, read_nil]
        simp only [Option.getD_some, processItem, hr]
        simp only [Bool.false_eq_true, and_false, if_false, prepend]
        obtain ⟨q, hq⟩ : ∃ q, pre ++ qq [] = .eoq :: q := by
          rcases hp with rfl | rfl
          · exact ⟨[], rfl⟩
          · exact ⟨[.eoq], rfl⟩
        refine ⟨st2, .eoq :: q, ?_⟩
        rw [hq, loop]
        simp [Verif.Model.Coder.read, processItem, h2, prepend, push_eoq]

end

/-! ### Calls -/

/-- The decoder is in state `st` with an empty queue when the next call starts feeding. -/
def At {o : Options} (d : Fields (decoderOf o.name).σ) (st : (decoderOf o.name).σ) (seen : Bool) : Prop :=
  (d.doNotFlush = false ∧ st = (decoderOf o.name).init ∧ seen = false) ∨
  (d.doNotFlush = true ∧ st = d.decoder ∧ d.queue = qq [] ∧ seen = d.bomSeen)

/-- The mode of the options. -/
abbrev modeOf (o : Options) : Mode := if o.fatal then .fatal else .replacement

theorem decode_at {o : Options} {d : Fields (decoderOf o.name).σ} {st : (decoderOf o.name).σ} {seen : Bool}
    (h : At d st seen) (fuel : Nat) (b : List Nat) (stream : Bool) :
    Verif.Model.TextDecoder.decode o fuel d b stream =
      match loop (decoderOf o.name).run (modeOf o) stream fuel st (qq b) (outAt [] true) with
      | .ub => .ub
      | .more => .more
      | .stop none => .stop none
      | .stop (some (st, q, out)) =>
        match serialize (isUtf o.name) o.ignoreBom seen out with
        | none => .ub
        | some (text, seen) => .stop (some (text, ⟨st, q, seen, stream⟩)) := by
  have e : push ([] : Queue) .eoq = qq [] := rfl
  have e' : pushAll (qq []) b = qq b := by
    have := pushAll_vals [] true b
    simpa [outAt, qq] using this
  have e2 : qq [] = outAt [] true := rfl
  unfold Verif.Model.TextDecoder.decode
  rcases h with ⟨h1, rfl, rfl⟩ | ⟨h1, rfl, h2, rfl⟩
  · simp only [h1, if_true, e, e']; rw [← e2]
    cases loop (decoderOf o.name).run (modeOf o) stream fuel (decoderOf o.name).init (qq b) (qq []) with
    | ub => rfl
    | more => rfl
    | stop x => cases x with
      | none => rfl
      | some x => rfl
  · simp only [h1, Bool.true_eq_false, if_false, h2, e, e']; rw [← e2]
    cases loop (decoderOf o.name).run (modeOf o) stream fuel d.decoder (qq b) (qq []) with
    | ub => rfl
    | more => rfl
    | stop x => cases x with
      | none => rfl
      | some x => rfl

/-- The outcome of decoding `b` to the end. -/
inductive Outcome (o : Options) (st : (decoderOf o.name).σ) (seen : Bool) (b : List Nat) : Ends (Option (List Nat)) → Prop
  | fine {t st2} : FeedOk (decoderOf o.name).run (modeOf o) st b t st2 → Flushes (decoderOf o.name).run (modeOf o) st2 .fine →
      Outcome o st seen b (.stop (some (ser (isUtf o.name) o.ignoreBom seen t).1))
  | endThrow {t st2} : FeedOk (decoderOf o.name).run (modeOf o) st b t st2 →
      Flushes (decoderOf o.name).run (modeOf o) st2 .throws → Outcome o st seen b (.stop none)
  | endUb {t st2} : FeedOk (decoderOf o.name).run (modeOf o) st b t st2 →
      Flushes (decoderOf o.name).run (modeOf o) st2 .ub → Outcome o st seen b .ub
  | throws : FeedThrow (decoderOf o.name).run (modeOf o) st b → Outcome o st seen b (.stop none)
  | ub : FeedUb (decoderOf o.name).run (modeOf o) st b → Outcome o st seen b .ub

theorem Outcome.ends {o : Options} {st : (decoderOf o.name).σ} {seen : Bool} {b : List Nat} {x : Ends (Option (List Nat))}
    (h : Outcome o st seen b x) : x ≠ .more := by cases h <;> simp

theorem loop_ok {o : Options} {st st2 : (decoderOf o.name).σ} {b t : List Nat}
    (h : FeedOk (decoderOf o.name).run (modeOf o) st b t st2) (stream : Bool) :
    ∃ n, ∀ k, loop (decoderOf o.name).run (modeOf o) stream (n + k) st (qq b) (outAt [] true) =
      loop (decoderOf o.name).run (modeOf o) stream k st2 (qq []) (outAt t true) := by
  obtain ⟨rs, f, q, rfl⟩ := h
  refine ⟨rs.length, fun k => ?_⟩
  rw [loop_feeds f q k [] true, List.nil_append]

theorem loop_throw {o : Options} {st : (decoderOf o.name).σ} {b : List Nat}
    (h : FeedThrow (decoderOf o.name).run (modeOf o) st b) (stream : Bool) :
    ∃ n, ∀ fuel, n ≤ fuel → loop (decoderOf o.name).run (modeOf o) stream fuel st (qq b) (outAt [] true) = .stop none := by
  obtain ⟨m, rs, f, e⟩ := h
  refine ⟨rs.length, fun fuel hf => ?_⟩
  rw [m]
  exact loop_throws f e fuel hf [] true

theorem loop_ub {o : Options} {st : (decoderOf o.name).σ} {b : List Nat}
    (h : FeedUb (decoderOf o.name).run (modeOf o) st b) (stream : Bool) :
    ∃ n, ∀ fuel, n ≤ fuel → loop (decoderOf o.name).run (modeOf o) stream fuel st (qq b) (outAt [] true) = .ub := by
  obtain ⟨rs, f, q⟩ := h
  exact ⟨rs.length + 1, fun fuel hf => loop_fails f q fuel (by omega) [] true⟩

/-- The last call. -/
theorem outcome_last {o : Options} {d : Fields (decoderOf o.name).σ} {st : (decoderOf o.name).σ} {seen : Bool}
    (ha : At d st seen) {b : List Nat} {x : Ends (Option (List Nat))} (h : Outcome o st seen b x) :
    ∃ n, ∀ fuel, n ≤ fuel → decodeChunks o fuel d [] b = x := by
  cases h with
  | fine h1 h2 =>
    obtain ⟨n, hn⟩ := loop_ok h1 false
    refine ⟨n + 2, fun fuel hf => ?_⟩
    obtain ⟨k, rfl⟩ : ∃ k, fuel = n + k := ⟨fuel - n, by omega⟩
    obtain ⟨st3, q3, e⟩ := h2 k (by omega) _
    rw [decodeChunks, decode_at ha, hn, e]
    dsimp only
    rw [serialize_eq]
  | endThrow h1 h2 =>
    obtain ⟨n, hn⟩ := loop_ok h1 false
    refine ⟨n + 2, fun fuel hf => ?_⟩
    obtain ⟨k, rfl⟩ : ∃ k, fuel = n + k := ⟨fuel - n, by omega⟩
    have e := h2 k (by omega)
    dsimp only at e
    rw [decodeChunks, decode_at ha, hn, e]
  | endUb h1 h2 =>
    obtain ⟨n, hn⟩ := loop_ok h1 false
    refine ⟨n + 2, fun fuel hf => ?_⟩
    obtain ⟨k, rfl⟩ : ∃ k, fuel = n + k := ⟨fuel - n, by omega⟩
    have e := h2 k (by omega)
    dsimp only at e
    rw [decodeChunks, decode_at ha, hn, e]
  | throws h =>
    obtain ⟨n, hn⟩ := loop_throw h false
    exact ⟨n, fun fuel hf => by rw [decodeChunks, decode_at ha, hn fuel hf]⟩
  | ub h =>
    obtain ⟨n, hn⟩ := loop_ub h false
    exact ⟨n, fun fuel hf => by rw [decodeChunks, decode_at ha, hn fuel hf]⟩

theorem outcome_exists {o : Options} {inv : (decoderOf o.name).σ → Prop} {W : Nat} {φ : (decoderOf o.name).σ → Nat}
    (p : Progress (decoderOf o.name).run inv W φ) (st : (decoderOf o.name).σ) (hi : inv st) (seen : Bool) (b : List Nat) :
    ∃ x, Outcome o st seen b x := by
  rcases feed_cases p (modeOf o) st hi b with ⟨t, st2, f, i2⟩ | f | f
  · obtain ⟨x, hx⟩ := flush_cases p o.fatal st2 i2
    cases x with
    | fine => exact ⟨_, .fine f hx⟩
    | throws => exact ⟨_, .endThrow f hx⟩
    | ub => exact ⟨_, .endUb f hx⟩
  · exact ⟨_, .throws f⟩
  · exact ⟨_, .ub f⟩

/-- Every way of cutting has the outcome of the whole. -/
theorem outcome_chunks {o : Options} {inv : (decoderOf o.name).σ → Prop} {W : Nat} {φ : (decoderOf o.name).σ → Nat}
    (p : Progress (decoderOf o.name).run inv W φ) (cs : List (List Nat)) (last : List Nat) :
    ∀ (d : Fields (decoderOf o.name).σ) (st : (decoderOf o.name).σ) (seen : Bool), inv st → At d st seen →
      ∃ x, Outcome o st seen (cs.flatten ++ last) x ∧ ∃ n, ∀ fuel, n ≤ fuel → decodeChunks o fuel d cs last = x := by
  induction cs with
  | nil =>
    intro d st seen hi ha
    obtain ⟨x, hx⟩ := outcome_exists p st hi seen last
    exact ⟨x, hx, outcome_last ha hx⟩
  | cons c cs ih =>
    intro d st seen hi ha
    rw [List.flatten_cons, List.append_assoc]
    rcases feed_cases p (modeOf o) st hi c with ⟨t, st2, f, i2⟩ | f | f
    · obtain ⟨n, hn⟩ := loop_ok f true
      have step : ∀ k, 1 ≤ k → Verif.Model.TextDecoder.decode o (n + k) d c true =
          .stop (some ((ser (isUtf o.name) o.ignoreBom seen t).1,
            ⟨st2, qq [], (ser (isUtf o.name) o.ignoreBom seen t).2, true⟩)) := by
        intro k hk
        obtain ⟨k, rfl⟩ : ∃ j, k = j + 1 := ⟨k - 1, by omega⟩
        rw [decode_at ha, hn, loop_wait]
        dsimp only
        rw [serialize_eq]
      obtain ⟨x, hx, m, hm⟩ := ih ⟨st2, qq [], (ser (isUtf o.name) o.ignoreBom seen t).2, true⟩ st2
        (ser (isUtf o.name) o.ignoreBom seen t).2 i2 (Or.inr ⟨rfl, rfl, rfl, rfl⟩)
      have go : ∀ fuel, n + 1 + m ≤ fuel → decodeChunks o fuel d (c :: cs) last =
          match x with
          | .stop (some rest) => .stop (some ((ser (isUtf o.name) o.ignoreBom seen t).1 ++ rest))
          | r => r := by
        intro fuel hf
        have e := step (fuel - n) (by omega)
        rw [show n + (fuel - n) = fuel by omega] at e
        rw [decodeChunks, e]
        dsimp only
        rw [hm fuel (by omega)]
        cases x with
        | ub => rfl
        | more => rfl
        | stop x => cases x <;> rfl
      cases hx with
      | fine h1 h2 =>
        refine ⟨_, .fine (f.ok h1) h2, n + 1 + m, fun fuel hf => ?_⟩
        rw [go fuel hf, ser_append]
      | endThrow h1 h2 => exact ⟨_, .endThrow (f.ok h1) h2, n + 1 + m, fun fuel hf => go fuel hf⟩
      | endUb h1 h2 => exact ⟨_, .endUb (f.ok h1) h2, n + 1 + m, fun fuel hf => go fuel hf⟩
      | throws h1 => exact ⟨_, .throws (f.throw h1), n + 1 + m, fun fuel hf => go fuel hf⟩
      | ub h1 => exact ⟨_, .ub (f.ub h1), n + 1 + m, fun fuel hf => go fuel hf⟩
    · obtain ⟨n, hn⟩ := loop_throw f true
      exact ⟨_, .throws (f.more p hi _), n, fun fuel hf => by rw [decodeChunks, decode_at ha, hn fuel hf]⟩
    · obtain ⟨n, hn⟩ := loop_ub f true
      exact ⟨_, .ub (f.more _), n, fun fuel hf => by rw [decodeChunks, decode_at ha, hn fuel hf]⟩

/-! ### The loop is `process_queue` -/

theorem loop_queue {σ : Type} {run : Run σ} {mode : Mode} (fuel : Nat) : ∀ (st st' : σ) (q q' out out' : Queue) (r : Res),
    Item.eoq ∈ q → processQueue false run mode fuel st q out = .stop (r, st', q', out') →
    (r = .finished ∧ loop run mode false fuel st q out = .stop (some (st', q', out'))) ∨
    ((∃ cp, r = .error cp) ∧ loop run mode false fuel st q out = .stop none) := by
  induction fuel with
  | zero => intro st st' q q' out out' r _ h; simp [processQueue] at h
  | succ n ih =>
    intro st st' q q' out out' r hq h
    obtain ⟨i, q1, hr⟩ : ∃ i q1, Verif.Model.Coder.read q = some (i, q1) := by
      cases q with
      | nil => simp at hq
      | cons x q => cases x <;> exact ⟨_, _, rfl⟩
    have hq1 : Item.eoq ∈ q1 := by
      cases q with
      | nil => simp at hq
      | cons x q =>
        cases x with
        | val v =>
          simp [Verif.Model.Coder.read] at hr
          obtain ⟨rfl, rfl⟩ := hr
          simpa using hq
        | eoq =>
          simp [Verif.Model.Coder.read] at hr
          obtain ⟨rfl, rfl⟩ := hr
          simp
    rw [processQueue, hr] at h
    rw [loop, hr]
    dsimp only [Option.getD_some] at h ⊢
    rw [if_neg (by simp)]
    cases hx : run st i with
    | none => simp [processItem, hx] at h
    | some y =>
      obtain ⟨r1, st1, pre⟩ := y
      cases r1 with
      | finished =>
        simp only [processItem, hx] at h ⊢
        simp at h
        obtain ⟨rfl, rfl, rfl, rfl⟩ := h
        exact Or.inl ⟨rfl, rfl⟩
      | cont =>
        simp only [processItem, hx, if_true] at h ⊢
        exact ih _ _ _ _ _ _ _ (by simp [prepend, hq1]) h
      | points l =>
        simp only [processItem, hx, if_true] at h ⊢
        exact ih _ _ _ _ _ _ _ (by simp [prepend, hq1]) h
      | bytes l =>
        simp only [processItem, hx, if_true] at h ⊢
        exact ih _ _ _ _ _ _ _ (by simp [prepend, hq1]) h
      | error cp =>
        cases mode with
        | fatal =>
          simp only [processItem, hx] at h ⊢
          simp at h
          exact Or.inr ⟨⟨cp, h.1.symm⟩, trivial⟩
        | _ =>
          simp only [processItem, hx, if_true] at h ⊢
          exact ih _ _ _ _ _ _ _ (by simp [prepend, hq1]) h

end Verif.Proof.StreamApi
