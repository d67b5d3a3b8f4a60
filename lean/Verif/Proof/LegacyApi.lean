import Verif.Spec.Coding
import Verif.Proof.SingleByte
/- From the encoding API to single coders. -/
namespace Verif.Proof.LegacyApi
open Verif.Model.Coder Verif.Model.Legacy Verif.Spec Verif.Proof.CoderRun Verif.Proof.Utf8Coder Verif.Proof.LegacyRun Verif.Proof.SingleByte

theorem toQueue_qq (s : List Nat) : toQueue s = qq s := toQueue_eq s

theorem nil_outAt : ([] : Queue) = outAt [] false := rfl

theorem encoded_plain {e : Enc} {enc : Run Unit} (he : encoderOf e = some ⟨Unit, (), enc⟩) (hp : Plain enc)
    {s bytes : List Nat} (h : Encoded e s bytes) :
    ∃ bss : List (List Nat), List.Forall₂ (fun c bs => enc () (.val c) = some (.bytes bs, (), [])) s bss ∧
      bytes = bss.flatten := by
  obtain ⟨c, fuel, q, out, h1, h2, h3⟩ := h
  rw [he] at h1
  cases h1
  unfold encodeOrFail runCoder at h2
  rw [toQueue_qq, nil_outAt] at h2
  dsimp only at h2
  cases hq : processQueue false enc .fatal fuel () (qq s) (outAt [] false) with
  | ub => rw [hq] at h2; simp at h2
  | more => rw [hq] at h2; simp at h2
  | stop x =>
    obtain ⟨r, st, q1, out1⟩ := x
    rw [hq] at h2
    dsimp only at h2
    have hr : r = .finished := by
      by_contra hr
      have key : ∀ (s : List Nat) (fuel : Nat) (o : List Nat) r st q out,
          processQueue false enc .fatal fuel () (qq s) (outAt o false) = .stop (r, st, q, out) →
          r = .finished ∨ ∃ cp, r = .error cp := by
        intro s
        induction s with
        | nil =>
          intro fuel o r st q out h
          cases fuel with
          | zero => simp [processQueue] at h
          | succ n => rw [processQueue_finish read_nil hp.1] at h; cases h; exact Or.inl rfl
        | cons c s ih =>
          intro fuel o r st q out h
          cases fuel with
          | zero => simp [processQueue] at h
          | succ n =>
            rw [processQueue, read_cons] at h
            dsimp only at h
            rcases hp.2 c with e | ⟨bs, e⟩ | ⟨cp, e⟩
            · simp [processItem, e] at h
            · rw [processItem_cont (qq s) o false e (by simp) (Or.inr (by simp))] at h
              dsimp only at h
              rw [if_pos rfl] at h
              exact ih _ _ _ _ _ _ h
            · simp [processItem, e] at h
              exact Or.inr ⟨cp, h.1.symm⟩
      rcases key s fuel [] _ _ _ _ hq with h | ⟨cp, rfl⟩
      · exact hr h
      · simp at h2
    subst hr
    obtain ⟨bss, g1, g2, _⟩ := plain_fatal hp s fuel [] _ _ _ hq
    refine ⟨bss, g1, ?_⟩
    simp only [Ends.stop.injEq, Prod.mk.injEq, true_and] at h2
    rw [← h3, ← h2.2, g2, push_eoq, fromQueue_outAt, List.nil_append]

theorem encoded_of_plain {e : Enc} {enc : Run Unit} (he : encoderOf e = some ⟨Unit, (), enc⟩) (hp : Plain enc)
    {s : List Nat} {bss : List (List Nat)}
    (h : List.Forall₂ (fun c bs => enc () (.val c) = some (.bytes bs, (), [])) s bss) : Encoded e s bss.flatten := by
  refine ⟨_, s.length + 1, [.eoq], _, he, ?_, fromQueue_outAt bss.flatten true⟩
  unfold encodeOrFail runCoder
  rw [toQueue_qq, nil_outAt, plain_encode hp h .fatal (s.length + 1) (by omega)]
  dsimp only
  rw [push_eoq, List.nil_append]
  rfl

theorem decoded_of_codes {e : Enc} {σ : Type} {dec : Run σ} {i : σ} (hd : decoderOf e = ⟨σ, i, dec⟩)
    (hf : dec i .eoq = some (.finished, i, [])) {s : List Nat} {bss : List (List Nat)}
    (h : List.Forall₂ (fun c bs => Codes dec i bs c) s bss) : Decoded e bss.flatten s := by
  refine ⟨bss.flatten.length + 1, fun fuel hl mode => ⟨[.eoq], _, ?_, fromQueue_outAt s true⟩⟩
  rw [hd]
  unfold runCoder
  rw [toQueue_qq, nil_outAt]
  dsimp only
  rw [decode_string hf h mode fuel (by omega)]
  simp only [List.nil_append]
  rfl

theorem forall2_mem {α β : Type} {R S : α → β → Prop} {P : α → Prop} {l : List α} {m : List β} (h : List.Forall₂ R l m)
    (hp : ∀ a ∈ l, P a) (k : ∀ a b, P a → R a b → S a b) : List.Forall₂ S l m := by
  induction h with
  | nil => exact .nil
  | @cons a b l m h1 _ ih => exact .cons (k a b (hp a (by simp)) h1) (ih (fun x hx => hp x (by simp [hx])))

theorem roundtrip {e : Enc} {enc : Run Unit} (he : encoderOf e = some ⟨Unit, (), enc⟩) (hp : Plain enc) {σ : Type}
    {dec : Run σ} {i : σ} (hd : decoderOf e = ⟨σ, i, dec⟩) (hf : dec i .eoq = some (.finished, i, []))
    {good : Nat → Prop} (hc : ∀ c bs, good c → enc () (.val c) = some (.bytes bs, (), []) → Codes dec i bs c)
    {s bytes : List Nat} (hg : ∀ c ∈ s, good c) (h : Encoded e s bytes) : Decoded e bytes s := by
  obtain ⟨bss, h1, rfl⟩ := encoded_plain he hp h
  exact decoded_of_codes hd hf (forall2_mem h1 hg hc)

theorem decoded_unique {e : Enc} {bytes s s' : List Nat} (h : Decoded e bytes s) (h' : Decoded e bytes s') : s = s' := by
  obtain ⟨n, h⟩ := h
  obtain ⟨n', h'⟩ := h'
  obtain ⟨q, out, e1, e2⟩ := h (n + n') (by omega) .fatal
  obtain ⟨q', out', e3, e4⟩ := h' (n + n') (by omega) .fatal
  rw [e1] at e3
  cases e3
  rw [← e2, ← e4]

theorem outs_noerr {mode : Mode} {rs : List Res} (h : ∀ r ∈ rs, ∀ cp, r ≠ .error cp) :
    outs false mode rs = points (report rs) := by
  rw [← outs_fatal false]
  unfold outs List.flatMap
  congr 1
  apply List.map_congr_left
  intro x hx
  cases x with
  | error cp => exact absurd rfl (h _ hx cp)
  | _ => rfl

theorem forall2_singletons {R : Nat → Nat → Prop} {S : Nat → List Nat → Prop} {b s : List Nat} (h : List.Forall₂ R b s)
    (hb : ∀ x ∈ b, x < 256) (k : ∀ x c, x < 256 → R x c → S c [x]) :
    ∃ bss, List.Forall₂ S s bss ∧ bss.flatten = b := by
  induction h with
  | nil => exact ⟨[], .nil, rfl⟩
  | @cons x c b s h1 _ ih =>
    obtain ⟨bss, i1, i2⟩ := ih (fun y hy => hb y (by simp [hy]))
    exact ⟨[x] :: bss, .cons (k x c (hb x (by simp)) h1) i1, by simp [i2]⟩

/-- Stateless coders that invert each other byte by byte. -/
theorem single_iff {e : Enc} {enc dec : Run Unit} (he : encoderOf e = some ⟨Unit, (), enc⟩)
    (hd : decoderOf e = ⟨Unit, (), dec⟩) (hp : Plain enc) (hbd : ByteD dec)
    (h1 : ∀ c bs, enc () (.val c) = some (.bytes bs, (), []) → Codes dec () bs c)
    (h2 : ∀ b c, b < 256 → dec () (.val b) = some (.points [c], (), []) → enc () (.val c) = some (.bytes [b], (), []))
    {s bytes : List Nat} (hb : ∀ b ∈ bytes, b < 256) : Encoded e s bytes ↔ Decoded e bytes s := by
  constructor
  · exact roundtrip he hp hd hbd.1 (good := fun _ => True) (fun c bs _ h => h1 c bs h) (fun _ _ => trivial)
  · rintro ⟨n, hn⟩
    obtain ⟨q, out, e1, e2⟩ := hn n (by omega) .fatal
    rw [hd] at e1
    unfold runCoder at e1
    rw [toQueue_qq, nil_outAt] at e1
    dsimp only at e1
    cases hq : processQueue false dec .fatal n () (qq bytes) (outAt [] false) with
    | ub => rw [hq] at e1; simp at e1
    | more => rw [hq] at e1; simp at e1
    | stop x =>
      obtain ⟨r, st, q1, out1⟩ := x
      rw [hq] at e1
      simp only [Ends.stop.injEq, Prod.mk.injEq] at e1
      obtain ⟨rfl, rfl, rfl⟩ := e1
      obtain ⟨s', g1, g2⟩ := byteD_fatal hbd bytes n [] _ _ _ hq
      rw [g2, List.nil_append, fromQueue_outAt] at e2
      subst e2
      obtain ⟨bss, k1, k2⟩ := forall2_singletons
        (S := fun c bs => enc () (.val c) = some (.bytes bs, (), [])) g1 hb h2
      rw [← k2]
      exact encoded_of_plain he hp k1

end Verif.Proof.LegacyApi
