import Verif.Proof.Digits
import Verif.Proof.LegacyApi
import Verif.Proof.Utf8Report
import Mathlib.Tactic.SplitIfs
/- Percent encoding. -/
namespace Verif.Proof.Percent
open Verif.Model.Infra Verif.Model.Coder Verif.Model.Legacy Verif.Model.Percent Verif.Spec Verif.Spec.Percent Verif.Proof.Digits
open Verif.Model.Table Verif.Proof.CoderRun Verif.Proof.Utf8Coder Verif.Proof.LegacyRun Verif.Proof.SingleByte Verif.Proof.LegacyApi

/-! ### Bytes -/

/-- `percentEncode` without the recursion of `toChars`. -/
def pe (b : Nat) : Option (List Nat) :=
  if b < 16 then toAsciiUppercase .c8 .c8 [0x25, 0x30, if b < 10 then 0x30 + b else 0x61 + (b - 10)]
  else toAsciiUppercase .c8 .c8 [0x25, if b / 16 < 10 then 0x30 + b / 16 else 0x61 + (b / 16 - 10),
    if b % 16 < 10 then 0x30 + b % 16 else 0x61 + (b % 16 - 10)]

theorem pe_all : (List.range 256).all (fun b => decide (pe b = some (escape b))) = true := by decide +kernel

theorem percentEncode_eq (b : Nat) (h : b < 256) : percentEncode b = some (escape b) := by
  have e : percentEncode b = pe b := by
    unfold percentEncode pe
    rw [toChars16 b h]
    by_cases h1 : b < 16
    · rw [if_pos h1, if_pos h1]
    · rw [if_neg h1, if_neg h1]
  rw [e]
  exact of_decide_eq_true (List.all_eq_true.mp pe_all b (List.mem_range.mpr h))

theorem encodeBytes_eq {set : Nat → Bool} {p : PSet} (hset : ∀ c, set c = decide (InSet p c)) (plus : Bool) (s : List Nat)
    (h : ∀ b ∈ s, b < 256) : encodeBytes set plus s = some (s.flatMap (unit p plus)) := by
  induction s with
  | nil => rfl
  | cons v s ih =>
    have hv : v < 256 := h v (by simp)
    have e : v % 256 = v := Nat.mod_eq_of_lt hv
    simp only [encodeBytes, e]
    rw [ih (fun b hb => h b (by simp [hb]))]
    rw [List.flatMap_cons]
    unfold unit
    by_cases h1 : plus = true ∧ v = 0x20
    · rw [if_pos h1, if_pos h1]
    · rw [if_neg h1, if_neg h1, hset]
      by_cases h2 : InSet p v
      · rw [if_neg (by simp [h2]), if_pos h2, percentEncode_eq v hv]
      · rw [if_pos (by simp [h2]), if_neg h2]

/-! ### Decoding -/

theorem hexDigit_iff (c : Nat) : isAsciiHexDigit c = true ↔ ∃ v, HexDigit c v := by
  simp only [isAsciiHexDigit, isAsciiUpperHexDigit, isAsciiLowerHexDigit, isAsciiDigit, HexDigit, Bool.or_eq_true,
    Bool.and_eq_true, decide_eq_true_eq]
  constructor
  · rintro ((h | h) | (h | h))
    · exact ⟨_, Or.inl ⟨h.1, h.2, rfl⟩⟩
    · exact ⟨_, Or.inr (Or.inl ⟨h.1, h.2, rfl⟩)⟩
    · exact ⟨_, Or.inl ⟨h.1, h.2, rfl⟩⟩
    · exact ⟨_, Or.inr (Or.inr ⟨h.1, h.2, rfl⟩)⟩
  · rintro ⟨v, h | h | h⟩ <;> omega

theorem hexDigit_val {c v : Nat} (h : HexDigit c v) : digitVal c = v := by
  unfold HexDigit at h; unfold digitVal; split <;> (try split) <;> omega

theorem fromChars2 (b c : Nat) : fromChars 16 [b, c] = digitVal b * 16 + digitVal c := by
  simp [fromChars]

theorem percentDecode_cons (a : Nat) (s : List Nat) :
    percentDecode (a :: s) =
      if startsWithPercentEncodedByte (a :: s) = true then fromChars 16 (s.take 2) :: percentDecode (s.drop 2)
      else a :: percentDecode s := by
  match s with
  | [] => rw [percentDecode] <;> simp [startsWithPercentEncodedByte]
  | [b] => rw [percentDecode] <;> simp [startsWithPercentEncodedByte]
  | b :: c :: r => rw [percentDecode]; rfl

theorem decodes_percentDecode (s : List Nat) : Decodes s (percentDecode s) := by
  induction h : s.length using Nat.strongRecOn generalizing s with
  | ind n ih =>
    match s with
    | [] => exact .nil
    | a :: s =>
      rw [percentDecode_cons]
      by_cases hs : startsWithPercentEncodedByte (a :: s) = true
      · rw [if_pos hs]
        match s with
        | [] => simp [startsWithPercentEncodedByte] at hs
        | [b] => simp [startsWithPercentEncodedByte] at hs
        | b :: c :: r =>
          simp only [startsWithPercentEncodedByte, Bool.and_eq_true, beq_iff_eq] at hs
          obtain ⟨⟨rfl, hb⟩, hc⟩ := hs
          obtain ⟨u, hu⟩ := (hexDigit_iff b).mp hb
          obtain ⟨v, hv⟩ := (hexDigit_iff c).mp hc
          have e : fromChars 16 ((b :: c :: r).take 2) = u * 16 + v := by
            simp only [List.take_succ_cons, List.take_zero, fromChars2, hexDigit_val hu, hexDigit_val hv]
          rw [e]
          exact .escape hu hv (ih r.length (by simp at h; omega) r rfl)
      · rw [if_neg hs]
        refine .keep ?_ (ih s.length (by simp at h; omega) s rfl)
        rintro ⟨b, c, u, v, r, rfl, rfl, hu, hv⟩
        apply hs
        simp only [startsWithPercentEncodedByte, Bool.and_eq_true, beq_self_eq_true, true_and]
        exact ⟨(hexDigit_iff b).mpr ⟨u, hu⟩, (hexDigit_iff c).mpr ⟨v, hv⟩⟩

theorem hexDigit_unique {c v w : Nat} (h : HexDigit c v) (h' : HexDigit c w) : v = w := by
  rw [← hexDigit_val h, ← hexDigit_val h']

theorem decodes_unique {s t u : List Nat} (h : Decodes s t) (h' : Decodes s u) : t = u := by
  induction h generalizing u with
  | nil => cases h'; rfl
  | @escape a b x y s t h1 h2 _ ih =>
    cases h' with
    | escape g1 g2 g3 => rw [hexDigit_unique h1 g1, hexDigit_unique h2 g2, ih g3]
    | keep g _ => exact absurd ⟨a, b, x, y, s, rfl, rfl, h1, h2⟩ g
  | @keep c s t h1 _ ih =>
    cases h' with
    | @escape a b x y s t g1 g2 g3 => exact absurd ⟨a, b, x, y, _, rfl, rfl, g1, g2⟩ h1
    | keep _ g => rw [ih g]

theorem hex_escape (d : Nat) (h : d < 16) : HexDigit (if d < 10 then 0x30 + d else 0x41 + (d - 10)) d := by
  unfold HexDigit; split <;> omega

theorem decodes_escape {b : Nat} (h : b < 256) {s t : List Nat} (hs : Decodes s t) : Decodes (escape b ++ s) (b :: t) := by
  have e : b / 16 * 16 + b % 16 = b := Nat.div_add_mod' b 16
  have := Decodes.escape (hex_escape (b / 16) (by omega)) (hex_escape (b % 16) (by omega)) hs
  rw [e] at this
  exact this

theorem decodes_plain {c : Nat} (h : c ≠ 0x25) {s t : List Nat} (hs : Decodes s t) : Decodes (c :: s) (c :: t) :=
  .keep (by rintro ⟨_, _, _, _, _, e, _⟩; exact h e) hs

/-- Sets that contain `%` are undone by decoding. -/
theorem decodes_units {p : PSet} (hp : InSet p 0x25) {s : List Nat} (h : ∀ b ∈ s, b < 256) :
    Decodes (s.flatMap (unit p false)) s := by
  induction s with
  | nil => exact .nil
  | cons b s ih =>
    have ih := ih (fun x hx => h x (by simp [hx]))
    rw [List.flatMap_cons]
    unfold unit
    rw [if_neg (by simp)]
    by_cases hb : InSet p b
    · rw [if_pos hb]; exact decodes_escape (h b (by simp)) ih
    · rw [if_neg hb]
      exact decodes_plain (by rintro rfl; exact hb hp) ih

/-! ### Encoders write bytes -/

/-- The encoder writes bytes, never code points. -/
def Writes {σ : Type} (run : Run σ) : Prop :=
  ∀ st item r st' pre, run st item = some (r, st', pre) → (∀ l, r ≠ .points l) ∧ ∀ l, r = .bytes l → ∀ b ∈ l, b < 256

theorem writes_queue {σ : Type} {run : Run σ} (hw : Writes run) : ∀ (fuel : Nat) (st : σ) (q : Queue) (o : List Nat) (c : Bool)
    (r : Res) (st' : σ) (q' out : Queue), processQueue false run .fatal fuel st q (outAt o c) = .stop (r, st', q', out) →
    ∃ o' c', out = outAt (o ++ o') c' ∧ ∀ b ∈ o', b < 256
  | 0, st, q, o, c, r, st', q', out => by intro h; simp [processQueue] at h
  | fuel + 1, st, q, o, c, r, st', q', out => by
    intro h
    rw [processQueue] at h
    cases hr : read q with
    | none => rw [hr] at h; simp only [Ends.stop.injEq, Prod.mk.injEq] at h; exact ⟨[], c, by simp [← h.2.2.2], by simp⟩
    | some x =>
      obtain ⟨item, q1⟩ := x
      rw [hr] at h
      dsimp only at h
      cases hx : run st item with
      | none => simp [processItem, hx] at h
      | some y =>
        obtain ⟨r1, st1, pre⟩ := y
        obtain ⟨g1, g2⟩ := hw _ _ _ _ _ hx
        by_cases hf : r1 = .finished
        · subst hf
          simp only [processItem, hx, push_eoq] at h
          rw [if_neg (by simp)] at h
          simp only [Ends.stop.injEq, Prod.mk.injEq] at h
          exact ⟨[], true, by simp [← h.2.2.2], by simp⟩
        · by_cases he : ∃ cp, r1 = .error cp
          · obtain ⟨cp, rfl⟩ := he
            simp only [processItem, hx] at h
            rw [if_neg (by simp)] at h
            simp only [Ends.stop.injEq, Prod.mk.injEq] at h
            exact ⟨[], c, by simp [← h.2.2.2], by simp⟩
          · rw [processItem_cont q1 o c hx hf (Or.inr (fun cp e => he ⟨cp, e⟩))] at h
            dsimp only at h
            rw [if_pos rfl] at h
            obtain ⟨o', c', e1, e2⟩ := writes_queue hw fuel _ _ _ _ _ _ _ _ h
            refine ⟨out1 false .fatal r1 ++ o', c', by rw [e1, List.append_assoc], ?_⟩
            intro b hb
            rcases List.mem_append.mp hb with hb | hb
            · cases r1 with
              | points l => exact absurd rfl (g1 l)
              | bytes l => exact g2 l rfl b hb
              | _ => simp [out1] at hb
            · exact e2 b hb

theorem writes_encodeOrFail {c : Coder} (hw : Writes c.run) {fuel : Nat} {q q' out : Queue} {r : Res}
    (h : encodeOrFail fuel q c [] = .stop (r, q', out)) : ∃ o, out = outAt o true ∧ ∀ b ∈ o, b < 256 := by
  unfold encodeOrFail runCoder at h
  rw [nil_outAt] at h
  cases hq : processQueue false c.run .fatal fuel c.init q (outAt [] false) with
  | ub => rw [hq] at h; simp at h
  | more => rw [hq] at h; simp at h
  | stop x =>
    obtain ⟨r1, st1, q1, out1⟩ := x
    obtain ⟨o', c', rfl, e2⟩ := writes_queue hw _ _ _ _ _ _ _ _ _ hq
    rw [hq] at h
    refine ⟨o', ?_, e2⟩
    cases r1 <;> simp only [push_eoq, List.nil_append, Ends.stop.injEq, Prod.mk.injEq] at h <;> exact h.2.2.symm

theorem writes_single (t0 t1 : Table) : Writes (singleE t0 t1) := by
  intro st item r st' pre h
  cases item <;> simp only [singleE] at h <;> repeat' split at h
  all_goals
    simp only [Option.some.injEq, Prod.mk.injEq] at h
    obtain ⟨rfl, -⟩ := h
    refine ⟨fun l e => by simp at e, fun l e => ?_⟩
    first
    | (simp only [Res.bytes.injEq] at e; subst e; intro b hb; simp at hb; omega)
    | simp at e

theorem writes_user : Writes userDefinedE := by
  intro st item r st' pre h
  cases item <;> simp only [userDefinedE] at h <;> repeat' split at h
  all_goals
    simp only [Option.some.injEq, Prod.mk.injEq] at h
    obtain ⟨rfl, -⟩ := h
    refine ⟨fun l e => by simp at e, fun l e => ?_⟩
    first
    | (simp only [Res.bytes.injEq] at e; subst e; intro b hb; simp at hb; omega)
    | simp at e

theorem writes_gb (gbk : Bool) : Writes (gbE gbk) := by
  intro st item r st' pre h
  cases item <;> simp only [gbE] at h <;> repeat' split at h
  all_goals first
    | (simp at h; done)
    | skip
  all_goals
    simp only [Option.some.injEq, Prod.mk.injEq] at h
    obtain ⟨rfl, -⟩ := h
    refine ⟨fun l e => by simp at e, fun l e => ?_⟩
    first
    | (simp only [Res.bytes.injEq] at e; subst e; intro b hb; simp at hb; omega)
    | simp at e

theorem writes_big5 : Writes big5E := by
  intro st item r st' pre h
  cases item <;> simp only [big5E] at h <;> repeat' split at h
  all_goals
    simp only [Option.some.injEq, Prod.mk.injEq] at h
    obtain ⟨rfl, -⟩ := h
    refine ⟨fun l e => by simp at e, fun l e => ?_⟩
    first
    | (simp only [Res.bytes.injEq] at e; subst e; intro b hb; simp at hb; omega)
    | simp at e

theorem writes_eucJp : Writes eucJpE := by
  intro st item r st' pre h
  cases item <;> simp only [eucJpE] at h <;> repeat' split at h
  all_goals
    simp only [Option.some.injEq, Prod.mk.injEq] at h
    obtain ⟨rfl, -⟩ := h
    refine ⟨fun l e => by simp at e, fun l e => ?_⟩
    first
    | (simp only [Res.bytes.injEq] at e; subst e; intro b hb; simp at hb; omega)
    | simp at e

theorem writes_jp : Writes jpE := by
  intro st item r st' pre h
  cases item <;> simp only [jpE] at h <;> repeat' split at h
  all_goals first
    | (simp at h; done)
    | skip
  all_goals
    simp only [Option.some.injEq, Prod.mk.injEq] at h
    obtain ⟨rfl, -⟩ := h
    refine ⟨fun l e => by simp at e, fun l e => ?_⟩
    first
    | (simp only [Res.bytes.injEq] at e; subst e; intro b hb; simp at hb; omega)
    | simp at e

theorem writes_sjis : Writes sjisE := by
  intro st item r st' pre h
  cases item <;> simp only [sjisE] at h <;> repeat' split at h
  all_goals
    simp only [Option.some.injEq, Prod.mk.injEq] at h
    obtain ⟨rfl, -⟩ := h
    refine ⟨fun l e => by simp at e, fun l e => ?_⟩
    first
    | (simp only [Res.bytes.injEq] at e; subst e; intro b hb; simp at hb; omega)
    | simp at e

theorem writes_eucKr : Writes eucKrE := by
  intro st item r st' pre h
  cases item <;> simp only [eucKrE] at h <;> repeat' split at h
  all_goals
    simp only [Option.some.injEq, Prod.mk.injEq] at h
    obtain ⟨rfl, -⟩ := h
    refine ⟨fun l e => by simp at e, fun l e => ?_⟩
    first
    | (simp only [Res.bytes.injEq] at e; subst e; intro b hb; simp at hb; omega)
    | simp at e

theorem utf8Tail_lt (cp n : Nat) : ∀ b ∈ utf8Tail cp n, b < 256 := by
  induction n with
  | zero => simp [utf8Tail]
  | succ n ih =>
    intro b hb
    rw [utf8Tail, List.mem_cons] at hb
    rcases hb with rfl | hb
    · omega
    · exact ih b hb

theorem utf8Array_lt (n cp : Nat) : ∀ b ∈ utf8Array n cp, b < 256 := by
  intro b hb
  rw [utf8Array, List.mem_cons] at hb
  rcases hb with rfl | hb
  · omega
  · exact utf8Tail_lt _ _ b hb

theorem writes_utf8 : Writes utf8E := by
  intro st item r st' pre h
  cases item <;> simp only [utf8E] at h <;> repeat' split at h
  all_goals first
    | (simp at h; done)
    | skip
  all_goals
    simp only [Option.some.injEq, Prod.mk.injEq] at h
    obtain ⟨rfl, -⟩ := h
    refine ⟨fun l e => by simp at e, fun l e => ?_⟩
    first
    | (simp only [Res.bytes.injEq] at e; subst e; exact utf8Array_lt _ _)
    | (simp only [Res.bytes.injEq] at e; subst e; intro b hb; simp at hb; omega)
    | simp at e

theorem writes_encoder {e : Enc} {c : Coder} (h : encoderOf e = some c) : Writes c.run := by
  cases e <;> simp only [encoderOf, Option.some.injEq, reduceCtorEq] at h <;> subst h
  case UTF_8 => exact writes_utf8
  case GBK => exact writes_gb true
  case gb18030 => exact writes_gb false
  case Big5 => exact writes_big5
  case EUC_JP => exact writes_eucJp
  case ISO_2022_JP => exact writes_jp
  case Shift_JIS => exact writes_sjis
  case EUC_KR => exact writes_eucKr
  case x_user_defined => exact writes_user
  all_goals exact writes_single _ _

theorem utf8_plain : Plain utf8E := by
  refine ⟨rfl, fun c => ?_⟩
  simp only [utf8E]
  repeat' split
  all_goals first
    | exact Or.inr (Or.inl ⟨_, rfl⟩)
    | exact Or.inl rfl

theorem plain_intro {enc : Run Unit} (h : Plain enc) : ∃ enc', (⟨Unit, (), enc⟩ : Coder) = ⟨Unit, (), enc'⟩ ∧ Plain enc' :=
  ⟨enc, rfl, h⟩

theorem plain_encoder {e : Enc} {c : Coder} (h : encoderOf e = some c) (he : e ≠ .ISO_2022_JP) :
    ∃ enc, c = ⟨Unit, (), enc⟩ ∧ Plain enc := by
  cases e <;> simp only [encoderOf, Option.some.injEq, reduceCtorEq] at h <;> subst h
  case UTF_8 => exact plain_intro utf8_plain
  case GBK => exact plain_intro (gb_plain _)
  case gb18030 => exact plain_intro (gb_plain _)
  case Big5 => exact plain_intro big5_plain
  case EUC_JP => exact plain_intro jp_plain
  case ISO_2022_JP => exact absurd rfl he
  case Shift_JIS => exact plain_intro sjis_plain
  case EUC_KR => exact plain_intro kr_plain
  case x_user_defined => exact plain_intro user_plain
  all_goals exact plain_intro (single_plain _ _)

/-! ### Fuel -/

theorem processQueue_mono {σ : Type} {dec : Bool} {run : Run σ} {mode : Mode} : ∀ (n m : Nat) (st : σ) (q out : Queue) x,
    processQueue dec run mode n st q out = .stop x → n ≤ m → processQueue dec run mode m st q out = .stop x
  | 0, m, st, q, out, x => by intro h; simp [processQueue] at h
  | n + 1, 0, st, q, out, x => by intro _ h; omega
  | n + 1, m + 1, st, q, out, x => by
    intro h hm
    rw [processQueue] at h ⊢
    cases hr : read q with
    | none => rw [hr] at h; exact h
    | some y =>
      obtain ⟨item, q1⟩ := y
      rw [hr] at h
      dsimp only at h ⊢
      cases hx : processItem dec run mode item st q1 out with
      | none => rw [hx] at h; simp at h
      | some z =>
        obtain ⟨r, st1, q2, o2⟩ := z
        rw [hx] at h
        dsimp only at h ⊢
        by_cases hc : r = .cont
        · rw [if_pos hc] at h ⊢
          exact processQueue_mono n m _ _ _ _ h (by omega)
        · rw [if_neg hc] at h ⊢
          exact h

theorem encodeOrFail_mono {n m : Nat} {q : Queue} {c : Coder} {out : Queue} {x : Res × Queue × Queue}
    (h : encodeOrFail n q c out = .stop x) (hm : n ≤ m) : encodeOrFail m q c out = .stop x := by
  unfold encodeOrFail runCoder at h ⊢
  cases hq : processQueue false c.run .fatal n c.init q out with
  | ub => rw [hq] at h; simp at h
  | more => rw [hq] at h; simp at h
  | stop y => rw [processQueue_mono n m _ _ _ _ hq hm]; rw [hq] at h; exact h

/-- Text that is encoded without error. -/
theorem loop_encoded {e : Enc} {s bytes : List Nat} (h : Encoded e s bytes) {set : Nat → Bool} {p : PSet}
    (hset : ∀ c, set c = decide (InSet p c)) (plus : Bool) :
    ∃ n, ∀ fuel, n ≤ fuel → percentEncodeAfterEncoding fuel e s set plus = .stop (bytes.flatMap (unit p plus)) := by
  obtain ⟨c, fuel, q, out, h1, h2, h3⟩ := h
  refine ⟨fuel + 1, fun n hn => ?_⟩
  obtain ⟨k, rfl⟩ : ∃ k, n = k + 1 := ⟨n - 1, by omega⟩
  obtain ⟨o, rfl, ho⟩ := writes_encodeOrFail (writes_encoder h1) h2
  rw [fromQueue_outAt] at h3
  subst h3
  unfold percentEncodeAfterEncoding
  rw [h1]
  dsimp only
  rw [encodeLoop, encodeOrFail_mono h2 (show fuel ≤ k + 1 by omega)]
  dsimp only
  rw [fromQueue_outAt, encodeBytes_eq hset plus o ho]
  simp

/-! ### Errors -/

theorem plain_run {enc : Run Unit} (hp : Plain enc) (s : List Nat) (hu : ∀ c ∈ s, enc () (.val c) ≠ none) (fuel : Nat)
    (hf : s.length < fuel) (o : List Nat) :
    (∃ bss : List (List Nat), List.Forall₂ (fun c bs => enc () (.val c) = some (.bytes bs, (), [])) s bss ∧
      processQueue false enc .fatal fuel () (qq s) (outAt o false) = .stop (.finished, (), [.eoq], outAt (o ++ bss.flatten) true)) ∨
    ∃ s1 c s2 cp, ∃ bss : List (List Nat), s = s1 ++ c :: s2 ∧
      List.Forall₂ (fun c bs => enc () (.val c) = some (.bytes bs, (), [])) s1 bss ∧
      enc () (.val c) = some (.error cp, (), []) ∧
      processQueue false enc .fatal fuel () (qq s) (outAt o false) = .stop (.error cp, (), qq s2, outAt (o ++ bss.flatten) false) := by
  induction s generalizing fuel o with
  | nil =>
    obtain ⟨k, rfl⟩ : ∃ k, fuel = k + 1 := ⟨fuel - 1, by simp at hf; omega⟩
    refine Or.inl ⟨[], .nil, ?_⟩
    rw [processQueue_finish read_nil hp.1]
    simp [qq]
  | cons c s ih =>
    obtain ⟨k, rfl⟩ : ∃ k, fuel = k + 1 := ⟨fuel - 1, by simp at hf; omega⟩
    rcases hp.2 c with e | ⟨bs, e⟩ | ⟨cp, e⟩
    · exact absurd e (hu c (by simp))
    · have step : processQueue false enc .fatal (k + 1) () (qq (c :: s)) (outAt o false) =
          processQueue false enc .fatal k () (qq s) (outAt (o ++ bs) false) := by
        rw [processQueue, read_cons]
        dsimp only
        rw [processItem_cont (qq s) o false e (by simp) (Or.inr (by simp))]
        dsimp only
        rw [if_pos rfl]
        rfl
      rw [step]
      rcases ih (fun x hx => hu x (by simp [hx])) k (by simp at hf; omega) (o ++ bs) with
        ⟨bss, g1, g2⟩ | ⟨s1, d, s2, cp, bss, g1, g2, g3, g4⟩
      · exact Or.inl ⟨bs :: bss, .cons e g1, by rw [g2]; simp⟩
      · exact Or.inr ⟨c :: s1, d, s2, cp, bs :: bss, by simp [g1], .cons e g2, g3, by rw [g4]; simp⟩
    · exact Or.inr ⟨[], c, s, cp, [], rfl, .nil, e, by rw [processQueue_fatal (read_cons c s) e]; simp⟩

theorem flatMap_forall2 {R : Nat → List Nat → Prop} {s : List Nat} {bss : List (List Nat)} (h : List.Forall₂ R s bss)
    (u : Nat → List Nat) (g : Nat → List Nat) (hg : ∀ c ∈ s, ∀ bs, R c bs → g c = bs.flatMap u) :
    s.flatMap g = bss.flatten.flatMap u := by
  induction h with
  | nil => rfl
  | @cons a b s bss h1 _ ih =>
    rw [List.flatMap_cons, List.flatten_cons, List.flatMap_append, hg a (by simp) b h1, ih (fun c hc => hg c (by simp [hc]))]

theorem loop_plain {enc : Run Unit} (hp : Plain enc) (hw : Writes enc) {set : Nat → Bool} {p : PSet}
    (hset : ∀ c, set c = decide (InSet p c)) (plus : Bool) (g : Nat → List Nat) (fuel : Nat) : ∀ (n : Nat) (s output : List Nat),
    s.length < n → s.length < fuel → (∀ c ∈ s, enc () (.val c) ≠ none) →
    (∀ c ∈ s, ∀ bs, enc () (.val c) = some (.bytes bs, (), []) → g c = bs.flatMap (unit p plus)) →
    (∀ c ∈ s, ∀ cp, enc () (.val c) = some (.error cp, (), []) → g c = reference cp) →
    encodeLoop fuel ⟨Unit, (), enc⟩ set plus n (qq s) output = .stop (output ++ s.flatMap g)
  | 0, s, output => by intro h; omega
  | n + 1, s, output => by
    intro hn hf hu hb he
    rw [encodeLoop]
    rcases plain_run hp s hu fuel hf [] with ⟨bss, g1, g2⟩ | ⟨s1, c, s2, cp, bss, g1, g2, g3, g4⟩
    · have e : encodeOrFail fuel (qq s) ⟨Unit, (), enc⟩ [] = .stop (.finished, [.eoq], outAt bss.flatten true) := by
        unfold encodeOrFail runCoder
        rw [nil_outAt]; dsimp only; rw [g2]; dsimp only
        rw [push_eoq]; rfl
      obtain ⟨o, eo, ho⟩ := writes_encodeOrFail (c := ⟨Unit, (), enc⟩) hw e
      have : o = bss.flatten := by rw [← fromQueue_outAt o true, ← eo, fromQueue_outAt]
      subst this
      rw [e]
      dsimp only
      rw [fromQueue_outAt, encodeBytes_eq hset plus _ ho]
      dsimp only
      rw [flatMap_forall2 g1 _ g (fun c hc bs h => hb c hc bs h)]
    · have e : encodeOrFail fuel (qq s) ⟨Unit, (), enc⟩ [] = .stop (.error cp, qq s2, outAt bss.flatten true) := by
        unfold encodeOrFail runCoder
        rw [nil_outAt]; dsimp only; rw [g4]; dsimp only
        rw [push_eoq]; rfl
      obtain ⟨o, eo, ho⟩ := writes_encodeOrFail (c := ⟨Unit, (), enc⟩) hw e
      have : o = bss.flatten := by rw [← fromQueue_outAt o true, ← eo, fromQueue_outAt]
      subst this
      rw [e]
      dsimp only
      rw [fromQueue_outAt, encodeBytes_eq hset plus _ ho]
      dsimp only
      subst g1
      simp only [List.length_append, List.length_cons] at hn hf
      rw [loop_plain hp hw hset plus g fuel n s2 _ (by omega) (by omega) (fun x hx => hu x (by simp [hx]))
        (fun x hx => hb x (by simp [hx])) (fun x hx => he x (by simp [hx]))]
      rw [List.flatMap_append, List.flatMap_cons, flatMap_forall2 g2 _ g (fun c hc bs h => hb c (by simp [hc]) bs h),
        he c (by simp) cp g3, reference, serializeInteger, toChars_decimal]
      have c1 : codes "%26%23" = [0x25, 0x32, 0x36, 0x25, 0x32, 0x33] := by decide
      have c2 : codes "%3B" = [0x25, 0x33, 0x42] := by decide
      rw [c1, c2]
      simp

end Verif.Proof.Percent
