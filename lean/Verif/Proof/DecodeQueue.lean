import Verif.Proof.DecodeSafe
import Verif.Proof.LegacyApi
/- `decode(in, name, out)` against `text_decoder`. -/
namespace Verif.Proof.DecodeQueue
open Verif.Model.Coder Verif.Model.Legacy Verif.Model.TextDecoder Verif.Spec Verif.Proof.CoderRun Verif.Proof.Utf8Coder
open Verif.Proof.Stream Verif.Proof.StreamCoders Verif.Proof.StreamApi Verif.Proof.LegacyApi

theorem feeds_trace {σ : Type} {run : Run σ} {st st2 : σ} {b : List Nat} {rs : List Res} (h : Feeds run st b rs st2) :
    Trace run st (qq b) rs st2 (qq []) := by
  induction h with
  | nil => exact .nil _ _
  | step h1 h2 _ ih =>
    refine .step (read_cons _ _) h1 h2 ?_
    simpa [qq] using ih

theorem fails_queue {σ : Type} {run : Run σ} {st : σ} {b : List Nat} {rs : List Res} (h : Fails run st b rs) (fuel : Nat)
    (hf : rs.length < fuel) (o : List Nat) (c : Bool) :
    processQueue false run .replacement fuel st (qq b) (outAt o c) = .ub := by
  induction h generalizing fuel o with
  | @here st v b h =>
    obtain ⟨k, rfl⟩ : ∃ k, fuel = k + 1 := ⟨fuel - 1, by omega⟩
    rw [processQueue, read_cons]
    simp [processItem, h]
  | @step st st' v b pv r rs h1 h2 _ ih =>
    simp only [List.length_cons] at hf
    obtain ⟨k, rfl⟩ : ∃ k, fuel = k + 1 := ⟨fuel - 1, by omega⟩
    rw [processQueue, read_cons]
    dsimp only
    rw [processItem_cont (qq b) o c h1 h2 (Or.inl (by decide))]
    dsimp only
    rw [if_pos rfl]
    have : List.map Item.val pv ++ qq b = qq (pv ++ b) := by simp [qq]
    rw [this]
    exact ih k (by omega) _

theorem end_queue {σ : Type} {run : Run σ} {inv : σ → Prop} {W : Nat} {φ : σ → Nat} (p : Progress run inv W φ) {st : σ}
    (hi : inv st) (he : run st .eoq ≠ none) (fuel : Nat) (hf : 2 ≤ fuel) (o : List Nat) (c : Bool) :
    ∃ st' q, processQueue false run .replacement fuel st (qq []) (outAt o c) = .stop (.finished, st', q, outAt o true) := by
  obtain ⟨⟨r, st', pre⟩, hr⟩ := Option.ne_none_iff_exists'.mp he
  rcases p.flush st r st' pre hi hr with rfl | ⟨⟨cp, rfl⟩, hp, st2, h2⟩
  · obtain ⟨k, rfl⟩ : ∃ k, fuel = k + 1 := ⟨fuel - 1, by omega⟩
    exact ⟨_, _, processQueue_finish read_nil hr k o c⟩
  · obtain ⟨k, rfl⟩ : ∃ k, fuel = k + 1 + 1 := ⟨fuel - 2, by omega⟩
    obtain ⟨q, hq⟩ : ∃ q, pre ++ qq [] = .eoq :: q := by
      rcases hp with rfl | rfl
      · exact ⟨[], rfl⟩
      · exact ⟨[.eoq], rfl⟩
    rw [processQueue, read_nil]
    dsimp only
    rw [processItem_cont (qq []) o c hr (by simp) (Or.inl (by decide))]
    dsimp only
    rw [if_pos rfl, hq]
    have := processQueue_finish (dec := false) (mode := .replacement) (q := .eoq :: q) rfl h2 k (o ++ out1 false .replacement (.error cp)) c
    exact ⟨st2, .eoq :: q, by rw [this]; simp [out1]⟩

theorem ub_queue {σ : Type} {run : Run σ} {st : σ} (he : run st .eoq = none) (fuel : Nat) (hf : 1 ≤ fuel) (out : Queue) :
    processQueue false run .replacement fuel st (qq []) out = .ub := by
  obtain ⟨k, rfl⟩ : ∃ k, fuel = k + 1 := ⟨fuel - 1, by omega⟩
  rw [processQueue, read_nil]
  simp [processItem, he]

/-- The replacement loop and the queue function agree. -/
theorem same {e : Enc} (he : e ≠ .replacement) (b : List Nat) :
    ∃ n, ∀ fuel, n ≤ fuel → ∀ d : Fields (decoderOf e).σ, d.doNotFlush = false →
      match decodeChunks ⟨e, false, true⟩ fuel d [] b with
      | .stop (some t) => ∃ q, runCoder (decoderOf e) .replacement fuel (toQueue b) [] = .stop (.finished, q, toQueue t)
      | .ub => runCoder (decoderOf e) .replacement fuel (toQueue b) [] = .ub
      | _ => False := by
  obtain ⟨inv, W, φ, p, hi⟩ := all e he
  obtain ⟨x, hx⟩ := outcome_exists (o := ⟨e, false, true⟩) p _ hi false b
  have key : ∃ n, ∀ fuel, n ≤ fuel → match x with
      | .stop (some t) => ∃ q, runCoder (decoderOf e) .replacement fuel (toQueue b) [] = .stop (.finished, q, toQueue t)
      | .ub => runCoder (decoderOf e) .replacement fuel (toQueue b) [] = .ub
      | _ => False := by
    have hend : ∀ {rs st2}, Feeds (decoderOf e).run (decoderOf e).init b rs st2 → ∀ fuel, rs.length + 2 ≤ fuel →
        (decoderOf e).run st2 .eoq ≠ none →
        ∃ q, runCoder (decoderOf e) .replacement fuel (toQueue b) [] = .stop (.finished, q, toQueue (outs false .replacement rs)) := by
      intro rs st2 f fuel hf h0
      obtain ⟨k, rfl⟩ : ∃ k, fuel = rs.length + k := ⟨fuel - rs.length, by omega⟩
      obtain ⟨st', q, h⟩ := end_queue p (feeds_inv p f hi) h0 k (by omega) (outs false .replacement rs) false
      refine ⟨q, ?_⟩
      unfold runCoder
      rw [toQueue_qq, nil_outAt, processQueue_trace (feeds_trace f) (Or.inl (by decide)), List.nil_append, h]
      simp [toQueue_eq, outAt]
    have hub : ∀ {rs st2}, Feeds (decoderOf e).run (decoderOf e).init b rs st2 → ∀ fuel, rs.length + 2 ≤ fuel →
        (decoderOf e).run st2 .eoq = none → runCoder (decoderOf e) .replacement fuel (toQueue b) [] = .ub := by
      intro rs st2 f fuel hf h0
      obtain ⟨k, rfl⟩ : ∃ k, fuel = rs.length + k := ⟨fuel - rs.length, by omega⟩
      unfold runCoder
      rw [toQueue_qq, nil_outAt, processQueue_trace (feeds_trace f) (Or.inl (by decide)), ub_queue h0 k (by omega)]
    cases hx with
    | fine f fl =>
      obtain ⟨rs, f, _, rfl⟩ := f
      refine ⟨rs.length + 2, fun fuel hf => ?_⟩
      dsimp only
      have e1 : (ser (isUtf e) true false (outs false (modeOf ⟨e, false, true⟩) rs)).1 = outs false .replacement rs := by
        unfold ser
        rw [if_neg (by simp)]
        rfl
      rw [e1]
      refine hend f fuel hf fun h0 => ?_
      obtain ⟨_, _, h⟩ := fl 2 (by omega) []
      rw [loop, read_nil] at h
      simp [processItem, h0] at h
    | @endThrow t st2 f fl =>
      obtain ⟨rs, f, _, _⟩ := f
      exfalso
      obtain ⟨y, hy⟩ := flush_cases p false st2 (feeds_inv p f hi)
      have h1 := fl 2 (by omega) []
      dsimp only at h1
      have h2 := hy 2 (by omega) []
      cases y with
      | fine =>
        obtain ⟨_, _, h2⟩ := h2
        have h3 := h1.symm.trans h2
        cases h3
      | ub =>
        have h3 := h1.symm.trans h2
        cases h3
      | throws =>
        cases h0 : (decoderOf e).run st2 .eoq with
        | none =>
          rw [loop, read_nil] at h1
          simp [processItem, h0] at h1
        | some z =>
          obtain ⟨r, st', pre⟩ := z
          rcases p.flush st2 r st' pre (feeds_inv p f hi) h0 with rfl | ⟨⟨cp, rfl⟩, hp, st3, h3⟩
          · rw [loop, read_nil] at h1
            simp [processItem, h0] at h1
          · obtain ⟨q, hq⟩ : ∃ q, pre ++ qq [] = .eoq :: q := by
              rcases hp with rfl | rfl
              · exact ⟨[], rfl⟩
              · exact ⟨[.eoq], rfl⟩
            rw [show modeOf ⟨e, false, true⟩ = .replacement from rfl, loop, read_nil] at h1
            simp only [Option.getD_some, processItem, h0] at h1
            simp only [Bool.false_eq_true, and_false, if_false, prepend] at h1
            rw [hq, loop] at h1
            simp [Verif.Model.Coder.read, processItem, h3] at h1
    | endUb f fl =>
      obtain ⟨rs, f, _, _⟩ := f
      exact ⟨rs.length + 2, fun fuel hf => hub f fuel hf (DecodeAll.flushes_ub p (fatal := false) (feeds_inv p f hi) fl)⟩
    | throws f => exact absurd f.1 (by simp [modeOf])
    | ub f =>
      obtain ⟨rs, f, _⟩ := f
      refine ⟨rs.length + 1, fun fuel hf => ?_⟩
      dsimp only
      unfold runCoder
      rw [toQueue_qq, nil_outAt, fails_queue f fuel (by omega)]
  obtain ⟨n, hn⟩ := key
  -- the decoder object does not matter
  have hd : ∃ m, ∀ fuel, m ≤ fuel → ∀ d : Fields (decoderOf e).σ, d.doNotFlush = false →
      decodeChunks ⟨e, false, true⟩ fuel d [] b = x := by
    obtain ⟨m, hm⟩ := outcome_last (o := ⟨e, false, true⟩) (d := ⟨(decoderOf e).init, [], false, false⟩)
      (Or.inl ⟨rfl, rfl, rfl⟩) hx
    refine ⟨m, fun fuel hf d hd => ?_⟩
    rw [← hm fuel hf]
    rw [decodeChunks, decodeChunks, decode_at (o := ⟨e, false, true⟩) (Or.inl ⟨hd, rfl, rfl⟩),
      decode_at (o := ⟨e, false, true⟩) (Or.inl ⟨rfl, rfl, rfl⟩)]
  obtain ⟨m, hm⟩ := hd
  refine ⟨n + m, fun fuel hf d hd => ?_⟩
  rw [hm fuel (by omega) d hd]
  exact hn fuel (by omega)

/-! ### The byte order mark -/

theorem peek_qq (b : List Nat) : peek 3 (qq b) = some b := by
  unfold peek
  rw [if_neg (by simp [qq])]
  congr 1
  induction b with
  | nil => rfl
  | cons v b ih => rw [show qq (v :: b) = .val v :: qq b from rfl, peekLoop, ih]

theorem readN_two (x y : Nat) (b : List Nat) : (readN 2 (qq (x :: y :: b))).2 = qq b := by
  unfold readN
  rw [if_neg (by simp [qq])]
  rfl

theorem readN_three (x y z : Nat) (b : List Nat) : (readN 3 (qq (x :: y :: z :: b))).2 = qq b := by
  unfold readN
  rw [if_neg (by simp [qq])]
  rfl

theorem decode_sniffed {name e : Enc} {b rest : List Nat} (h : Sniffed name b e rest) (fuel : Nat) (out : Queue) :
    Verif.Model.Legacy.decode fuel (toQueue b) name out = runCoder (decoderOf e) .replacement fuel (toQueue rest) out := by
  unfold Verif.Model.Legacy.decode bomSniff
  rw [toQueue_qq, toQueue_qq, peek_qq]
  dsimp only
  cases h with
  | utf8 =>
    rw [if_pos (by simp)]
    dsimp only
    rw [if_pos rfl, readN_three]
  | utf16be =>
    rw [if_neg (by simp), if_pos (by simp)]
    dsimp only
    rw [if_neg (by simp), readN_two]
  | utf16le =>
    rw [if_neg (by simp), if_neg (by simp), if_pos (by simp)]
    dsimp only
    rw [if_neg (by simp), readN_two]
  | none _ h1 h2 h3 =>
    have get : ∀ (i : Nat) (c : Nat), c ≠ 0 → (b[i]?).getD 0 = c → b[i]? = some c := by
      intro i c hc he
      cases hb : b[i]? with
      | none => rw [hb] at he; exact absurd he.symm hc
      | some y => rw [hb] at he; rw [← he]; rfl
    have n1 : ¬ ((b[0]?).getD 0 = 0xEF ∧ (b[1]?).getD 0 = 0xBB ∧ (b[2]?).getD 0 = 0xBF) := by
      rintro ⟨a1, a2, a3⟩
      have a1 := get 0 _ (by decide) a1
      have a2 := get 1 _ (by decide) a2
      have a3 := get 2 _ (by decide) a3
      match b, h1, a1, a2, a3 with
      | x :: y :: z :: b, h1, a1, a2, a3 =>
        simp at a1 a2 a3
        subst a1 a2 a3
        exact h1 ⟨b, rfl⟩
    have n2 : ∀ p q, p ≠ 0 → q ≠ 0 → ¬ [p, q] <+: b → ¬ ((b[0]?).getD 0 = p ∧ (b[1]?).getD 0 = q) := by
      rintro p q hp hq hn ⟨a1, a2⟩
      have a1 := get 0 _ hp a1
      have a2 := get 1 _ hq a2
      match b, hn, a1, a2 with
      | x :: y :: b, hn, a1, a2 =>
        simp at a1 a2
        subst a1 a2
        exact hn ⟨b, rfl⟩
    rw [if_neg n1, if_neg (n2 _ _ (by decide) (by decide) h2), if_neg (n2 _ _ (by decide) (by decide) h3)]

end Verif.Proof.DecodeQueue
