import Verif.Model.Legacy
import Verif.Proof.Utf8Coder
import Verif.Proof.TablesGb
import Verif.Proof.TablesKr
import Verif.Proof.TablesJis
import Verif.Proof.TablesBig5
import Mathlib.Data.List.Forall2
import Mathlib.Data.List.Flatten
/- Encoding and decoding of single code points by the legacy coders, and of strings made of them. -/
namespace Verif.Proof.LegacyRun
open Verif.Model.Coder Verif.Model.Table Verif.Model.Tables Verif.Model.Legacy Verif.Proof.CoderRun Verif.Proof.Utf8Coder
open Verif.Proof.Tables

/-- The decoder turns `bs` into `cp` and is back in its first state. -/
def Codes {σ : Type} (dec : Run σ) (i : σ) (bs : List Nat) (cp : Nat) : Prop :=
  ∀ rest, ∃ rs, Trace dec i (qq (bs ++ rest)) rs i (qq rest) ∧ report rs = [some cp] ∧ rs.length = bs.length

theorem codes1 {σ : Type} {dec : Run σ} {i : σ} {a cp : Nat} (h : dec i (.val a) = some (.points [cp], i, [])) :
    Codes dec i [a] cp := fun rest =>
  ⟨_, .step (read_cons a rest) h (by simp) (.nil _ _), rfl, rfl⟩

theorem codes2 {σ : Type} {dec : Run σ} {i s : σ} {a b cp : Nat} (h1 : dec i (.val a) = some (.cont, s, []))
    (h2 : dec s (.val b) = some (.points [cp], i, [])) : Codes dec i [a, b] cp := fun rest =>
  ⟨_, .step (read_cons a (b :: rest)) h1 (by simp) (.step (read_cons b rest) h2 (by simp) (.nil _ _)), rfl, rfl⟩

theorem codes4 {σ : Type} {dec : Run σ} {i s1 s2 s3 : σ} {a b c d cp : Nat}
    (h1 : dec i (.val a) = some (.cont, s1, [])) (h2 : dec s1 (.val b) = some (.cont, s2, []))
    (h3 : dec s2 (.val c) = some (.cont, s3, [])) (h4 : dec s3 (.val d) = some (.points [cp], i, [])) :
    Codes dec i [a, b, c, d] cp := fun rest =>
  ⟨_, .step (read_cons a (b :: c :: d :: rest)) h1 (by simp) (.step (read_cons b (c :: d :: rest)) h2 (by simp)
    (.step (read_cons c (d :: rest)) h3 (by simp) (.step (read_cons d rest) h4 (by simp) (.nil _ _)))), rfl, rfl⟩

/-- An encoder without state: each code point becomes bytes or an error. -/
def Plain (enc : Run Unit) : Prop :=
  enc () .eoq = some (.finished, (), []) ∧ ∀ c, enc () (.val c) = none ∨
    (∃ bs, enc () (.val c) = some (.bytes bs, (), [])) ∨ ∃ cp, enc () (.val c) = some (.error cp, (), [])

/-- What a stateless encoder in fatal mode has written when it finishes. -/
theorem plain_fatal {enc : Run Unit} (hp : Plain enc) : ∀ (s : List Nat) (fuel : Nat) (o : List Nat) (st : Unit) (q out : Queue),
    processQueue false enc .fatal fuel () (qq s) (outAt o false) = .stop (.finished, st, q, out) →
    ∃ bss : List (List Nat), List.Forall₂ (fun c bs => enc () (.val c) = some (.bytes bs, (), [])) s bss ∧
      out = outAt (o ++ bss.flatten) true ∧ q = [.eoq]
  | s, 0, o, st, q, out, h => by simp [processQueue] at h
  | [], fuel + 1, o, st, q, out, h => by
    rw [processQueue_finish read_nil hp.1] at h
    cases h
    exact ⟨[], .nil, by simp, rfl⟩
  | c :: s, fuel + 1, o, st, q, out, h => by
    rw [processQueue, read_cons] at h
    dsimp only at h
    rcases hp.2 c with e | ⟨bs, e⟩ | ⟨cp, e⟩
    · simp [processItem, e] at h
    · rw [processItem_cont (qq s) o false e (by simp) (Or.inr (by simp))] at h
      dsimp only at h
      rw [if_pos rfl] at h
      obtain ⟨bss, h1, h2, h3⟩ := plain_fatal hp s fuel _ st q out h
      exact ⟨bs :: bss, .cons e h1, by rw [h2]; simp [out1], h3⟩
    · simp [processItem, e] at h

theorem plain_trace {enc : Run Unit} {s : List Nat} {bss : List (List Nat)}
    (h : List.Forall₂ (fun c bs => enc () (.val c) = some (.bytes bs, (), [])) s bss) (rest : List Nat) :
    Trace enc () (qq (s ++ rest)) (bss.map .bytes) () (qq rest) := by
  induction h with
  | nil => exact .nil _ _
  | @cons c bs s bss h1 _ ih => exact .step (read_cons c (s ++ rest)) h1 (by simp) ih

theorem plain_encode {enc : Run Unit} (hp : Plain enc) {s : List Nat} {bss : List (List Nat)}
    (h : List.Forall₂ (fun c bs => enc () (.val c) = some (.bytes bs, (), [])) s bss) (mode : Mode) (fuel : Nat)
    (hf : s.length < fuel) (o : List Nat) :
    processQueue false enc mode fuel () (qq s) (outAt o false) =
      .stop (.finished, (), [.eoq], outAt (o ++ bss.flatten) true) := by
  have hl : bss.length = s.length := h.length_eq.symm
  have ht := plain_trace h []
  rw [List.append_nil] at ht
  have hw : Whole enc () (qq s) (bss.map .bytes) () [.eoq] := ⟨(), qq [], .eoq, qq [], [], ht, read_nil, hp.1, rfl⟩
  rw [processQueue_whole hw (Or.inr (by simp)) fuel (by simpa [hl] using hf)]
  have : outs false mode (bss.map .bytes) = bss.flatten := by
    simp only [outs, List.flatMap_map, out1]
    simp [List.flatMap]
  rw [this]

/-- A string coded code point by code point is decoded. -/
theorem decode_trace {σ : Type} {dec : Run σ} {i : σ} {s : List Nat} {bss : List (List Nat)}
    (h : List.Forall₂ (fun c bs => Codes dec i bs c) s bss) (rest : List Nat) :
    ∃ rs, Trace dec i (qq (bss.flatten ++ rest)) rs i (qq rest) ∧ report rs = s.map some ∧
      rs.length = bss.flatten.length := by
  induction h with
  | nil => exact ⟨[], .nil _ _, rfl, rfl⟩
  | @cons c bs s bss h1 _ ih =>
    obtain ⟨rs, t, r, l⟩ := ih
    obtain ⟨rs1, t1, r1, l1⟩ := h1 (bss.flatten ++ rest)
    refine ⟨rs1 ++ rs, ?_, by rw [report_append, r1, r]; rfl, by simp [l, l1]⟩
    have := t1.append t
    simpa using this

theorem decode_string {σ : Type} {dec : Run σ} {i : σ} (hf : dec i .eoq = some (.finished, i, []))
    {s : List Nat} {bss : List (List Nat)} (h : List.Forall₂ (fun c bs => Codes dec i bs c) s bss) (mode : Mode)
    (fuel : Nat) (hl : bss.flatten.length < fuel) (o : List Nat) (c : Bool) :
    processQueue false dec mode fuel i (qq bss.flatten) (outAt o c) =
      .stop (.finished, i, [.eoq], outAt (o ++ s) true) := by
  obtain ⟨rs, t, r, l⟩ := decode_trace h []
  rw [List.append_nil] at t
  have hw : Whole dec i (qq bss.flatten) rs i [.eoq] := ⟨i, qq [], .eoq, qq [], [], t, read_nil, hf, rfl⟩
  have hne : ∀ r ∈ rs, ∀ cp, r ≠ .error cp := by
    intro x hx cp e
    have := (error_iff_report rs).mp ⟨x, hx, cp, e⟩
    rw [r] at this; simp at this
  rw [processQueue_whole hw (Or.inr hne) fuel (by omega)]
  have : outs false mode rs = s := by
    have h1 : outs false mode rs = outs false .fatal rs := by
      unfold outs List.flatMap
      congr 1
      apply List.map_congr_left
      intro x hx
      cases x with
      | error cp => exact absurd rfl (hne _ hx cp)
      | _ => rfl
    rw [h1, outs_fatal, r, Verif.Spec.points]
    simp
  rw [this]

/-- What holds of everything a coder emits holds of its whole output. -/
theorem emits {σ : Type} {run : Run σ} {P : Nat → Prop}
    (h : ∀ st item r st' pre, run st item = some (r, st', pre) → ∀ c ∈ out1 false .fatal r, P c) :
    ∀ (fuel : Nat) (st : σ) (q : Queue) (o : List Nat) (st' : σ) (q' out : Queue),
    processQueue false run .fatal fuel st q (outAt o false) = .stop (.finished, st', q', out) →
    ∃ s : List Nat, out = outAt (o ++ s) true ∧ ∀ c ∈ s, P c := by
  intro fuel
  induction fuel with
  | zero => intro st q o st' q' out hh; simp [processQueue] at hh
  | succ n ih =>
    intro st q o st' q' out hh
    rw [processQueue] at hh
    cases hr : read q with
    | none => rw [hr] at hh; simp at hh
    | some x =>
      obtain ⟨item, q1⟩ := x
      rw [hr] at hh
      dsimp only at hh
      cases hx : run st item with
      | none => simp [processItem, hx] at hh
      | some y =>
        obtain ⟨r, st1, pre⟩ := y
        by_cases hf : r = .finished
        · subst hf
          simp [processItem, hx, push_eoq] at hh
          exact ⟨[], by simp [← hh.2.2], by simp⟩
        by_cases he : ∃ cp, r = .error cp
        · obtain ⟨cp, rfl⟩ := he
          simp [processItem, hx] at hh
        · rw [processItem_cont q1 o false hx hf (Or.inr (fun cp e => he ⟨cp, e⟩))] at hh
          dsimp only at hh
          rw [if_pos rfl] at hh
          obtain ⟨s, e1, e2⟩ := ih _ _ _ _ _ _ hh
          refine ⟨out1 false .fatal r ++ s, by rw [e1, List.append_assoc], ?_⟩
          intro c hc
          rcases List.mem_append.mp hc with hc | hc
          · exact h _ _ _ _ _ hx c hc
          · exact e2 c hc

/-! ### Two-byte coders -/

theorem kr_plain : Plain eucKrE := by
  refine ⟨rfl, fun c => ?_⟩
  simp only [eucKrE]
  split
  · exact Or.inr (Or.inl ⟨_, rfl⟩)
  · split
    · exact Or.inr (Or.inr ⟨_, rfl⟩)
    · exact Or.inr (Or.inl ⟨_, rfl⟩)

theorem kr_codes {c : Nat} {bs : List Nat} (h : eucKrE () (.val c) = some (.bytes bs, (), [])) :
    Codes eucKrD 0 bs c := by
  simp only [eucKrE] at h
  split at h
  · cases h
    apply codes1
    have e : c % 256 = c := by omega
    simp only [eucKrD, e]
    rw [if_neg (by simp), if_pos (by omega)]
  · split at h
    · cases h
    · rename_i p hp
      cases h
      obtain ⟨h1, h2⟩ := agree_kr.pointer hp
      have h2 : p < 23940 := h2
      have ea : (p / 190 + 0x81) % 256 = p / 190 + 0x81 := by omega
      have eb : (p % 190 + 0x41) % 256 = p % 190 + 0x41 := by omega
      rw [ea, eb]
      have ep : ((p / 190 + 0x81 - 0x81) * 190 + (p % 190 + 0x41 - 0x41)) % 65536 = p := by omega
      apply codes2 (s := p / 190 + 0x81)
      · simp only [eucKrD, ea]
        rw [if_neg (by simp), if_neg (by omega), if_pos (by omega)]
      · simp only [eucKrD, eb]
        rw [if_pos (by omega), if_pos (by omega), ep]
        simp only [Option.bind_some, h1]

/-- Everything the EUC-KR decoder emits can be encoded. -/
theorem kr_emits (st : Nat) (item : Item) (r : Res) (st' : Nat) (pre : List Item) (h : eucKrD st item = some (r, st', pre)) :
    ∀ c ∈ out1 false .fatal r, ∃ bs, eucKrE () (.val c) = some (.bytes bs, (), []) := by
  have low : ∀ b, b ≤ 0x7F → ∃ bs, eucKrE () (.val b) = some (.bytes bs, (), []) := by
    intro b hb
    exact ⟨_, by simp only [eucKrE]; rw [if_pos hb]⟩
  cases item with
  | eoq =>
    simp only [eucKrD] at h
    split at h <;> (cases h; simp [out1, Res.err])
  | val v =>
    simp only [eucKrD] at h
    split at h
    · split at h
      · rename_i cp hcp
        cases h
        intro c hc
        have : c = cp := by simpa [out1] using hc
        subst this
        obtain ⟨p, _, hp⟩ := Option.bind_eq_some_iff.mp hcp
        obtain ⟨p', hp'⟩ := covers_kr p c hp
        by_cases hl : c ≤ 0x7F
        · exact low c hl
        · exact ⟨_, by simp only [eucKrE]; rw [if_neg hl, hp']⟩
      · cases h; simp [out1, Res.err]
    · split at h
      · rename_i hb
        cases h
        intro c hc
        have : c = v % 256 := by simpa [out1] using hc
        exact low c (this ▸ hb)
      · split at h <;> (cases h; simp [out1, Res.err])

theorem big5_plain : Plain big5E := by
  refine ⟨rfl, fun c => ?_⟩
  simp only [big5E]
  split
  · exact Or.inr (Or.inl ⟨_, rfl⟩)
  · split
    · exact Or.inr (Or.inr ⟨_, rfl⟩)
    · exact Or.inr (Or.inl ⟨_, rfl⟩)

/-- The four pointers with two code points have none in the table. -/
theorem big5_pairs : codePoint cpBig5 1133 = none ∧ codePoint cpBig5 1135 = none ∧ codePoint cpBig5 1164 = none ∧
    codePoint cpBig5 1166 = none := by decide +kernel

theorem big5_codes {c : Nat} {bs : List Nat} (h : big5E () (.val c) = some (.bytes bs, (), []))
    (hb : ∀ b ∈ bs.drop 1, b ≤ 0x7E) : Codes big5D 0 bs c := by
  simp only [big5E] at h
  split at h
  · cases h
    apply codes1
    have e : c % 256 = c := by omega
    simp only [big5D, e]
    rw [if_neg (by simp), if_pos (by omega)]
  · split at h
    · cases h
    · rename_i p hp
      cases h
      obtain ⟨h1, h2⟩ := agree_big5.pointer hp
      have h2 : p < 19782 := h2
      have ea : (p / 157 + 0x81) % 256 = p / 157 + 0x81 := by omega
      have et : p % 157 % 256 = p % 157 := by omega
      rw [et] at hb ⊢
      rw [ea]
      have ht : p % 157 < 0x3F := by
        by_contra hc
        rw [if_neg hc] at hb
        have := hb ((p % 157 + 0x62) % 256) (by simp)
        omega
      rw [if_pos ht]
      have eb : (p % 157 + 0x40) % 256 = p % 157 + 0x40 := by omega
      rw [eb]
      have ep : ((p / 157 + 0x81 - 0x81) * 157 + (p % 157 + 0x40 - 0x40)) % 65536 = p := by omega
      apply codes2 (s := p / 157 + 0x81)
      · simp only [big5D, ea]
        rw [if_neg (by simp), if_neg (by omega), if_pos (by omega)]
      · simp only [big5D, eb]
        rw [if_pos (by omega), if_pos (by omega), if_pos (show p % 157 + 0x40 < 0x7F by omega), ep]
        obtain ⟨q1, q2, q3, q4⟩ := big5_pairs
        rw [if_neg (by rintro rfl; rw [q1] at h1; cases h1), if_neg (by rintro rfl; rw [q2] at h1; cases h1),
          if_neg (by rintro rfl; rw [q3] at h1; cases h1), if_neg (by rintro rfl; rw [q4] at h1; cases h1), h1]

theorem jp_plain : Plain eucJpE := by
  refine ⟨rfl, fun c => ?_⟩
  simp only [eucJpE]
  split
  · exact Or.inr (Or.inl ⟨_, rfl⟩)
  split
  · exact Or.inr (Or.inl ⟨_, rfl⟩)
  split
  · exact Or.inr (Or.inl ⟨_, rfl⟩)
  split
  · exact Or.inr (Or.inl ⟨_, rfl⟩)
  split
  · exact Or.inr (Or.inr ⟨_, rfl⟩)
  · exact Or.inr (Or.inl ⟨_, rfl⟩)

theorem jp_codes {c : Nat} {bs : List Nat} (h : eucJpE () (.val c) = some (.bytes bs, (), []))
    (n1 : c ≠ 0xA5) (n2 : c ≠ 0x203E) (n3 : c ≠ 0x2212) : Codes eucJpD EucJpD.init bs c := by
  simp only [eucJpE] at h
  split at h
  · cases h
    apply codes1
    have e : c % 256 = c := by omega
    simp only [eucJpD, EucJpD.init, e]
    rw [if_neg (by simp), if_neg (by simp), if_neg (by simp), if_pos (by omega)]
  split at h
  · cases h
    have eb : (c - 0xFF61 + 0xA1) % 256 = c - 0xFF61 + 0xA1 := by omega
    rw [eb]
    apply codes2 (s := ⟨false, 0x8E⟩)
    · rfl
    · simp only [eucJpD, eb]
      rw [if_pos ⟨trivial, by omega, by omega⟩]
      have : 0xFF61 - 0xA1 + (c - 0xFF61 + 0xA1) = c := by omega
      rw [this]; rfl
  · split at h
    · cases h
    · rename_i p hp
      cases h
      obtain ⟨h1, h2⟩ := jis_pointer hp
      have ea : (p / 94 + 0xA1) % 256 = p / 94 + 0xA1 := by omega
      have eb : (p % 94 + 0xA1) % 256 = p % 94 + 0xA1 := by omega
      rw [ea, eb]
      have ep : ((p / 94 + 0xA1 - 0xA1) * 94 + (p % 94 + 0xA1) - 0xA1) % 65536 = p := by omega
      apply codes2 (s := ⟨false, p / 94 + 0xA1⟩)
      · simp only [eucJpD, EucJpD.init, ea]
        rw [if_neg (by simp), if_neg (by simp), if_neg (by simp), if_neg (by omega), if_pos (by omega)]
      · simp only [eucJpD, eb]
        rw [if_neg (by omega), if_neg (by omega), if_pos (by omega), if_pos (by omega), ep]
        simp only [Bool.false_eq_true, if_false, h1]
        rfl

theorem sjis_plain : Plain sjisE := by
  refine ⟨rfl, fun c => ?_⟩
  simp only [sjisE]
  split
  · exact Or.inr (Or.inl ⟨_, rfl⟩)
  split
  · exact Or.inr (Or.inl ⟨_, rfl⟩)
  split
  · exact Or.inr (Or.inl ⟨_, rfl⟩)
  split
  · exact Or.inr (Or.inl ⟨_, rfl⟩)
  split
  · exact Or.inr (Or.inr ⟨_, rfl⟩)
  · exact Or.inr (Or.inl ⟨_, rfl⟩)

theorem sjis_codes {c : Nat} {bs : List Nat} (h : sjisE () (.val c) = some (.bytes bs, (), []))
    (n1 : c ≠ 0xA5) (n2 : c ≠ 0x203E) (n3 : c ≠ 0x2212) : Codes sjisD 0 bs c := by
  simp only [sjisE, sjis0_eq, sjis1_eq] at h
  split at h
  · cases h
    apply codes1
    have e : c % 256 = c := by omega
    simp only [sjisD, e]
    rw [if_neg (by simp), if_pos (by omega)]
  split at h
  · cases h
    have eb : (c - 0xFF61 + 0xA1) % 256 = c - 0xFF61 + 0xA1 := by omega
    rw [eb]
    apply codes1
    simp only [sjisD, eb]
    rw [if_neg (by simp), if_neg (by omega), if_pos (by omega)]
    have : 0xFF61 - 0xA1 + (c - 0xFF61 + 0xA1) = c := by omega
    rw [this]
  · split at h
    · cases h
    · rename_i p hp
      cases h
      obtain ⟨h1, h2⟩ := jis_pointer hp
      have el : p / 188 % 256 = p / 188 := by omega
      have et : p % 188 % 256 = p % 188 := by omega
      rw [el, et]
      generalize hA : (p / 188 + if p / 188 < 0x1F then 0x81 else 0xC1) % 256 = A
      generalize hB : (p % 188 + if p % 188 < 0x3F then 0x40 else 0x41) % 256 = B
      have hA' : (p / 188 < 0x1F ∧ A = p / 188 + 0x81) ∨ (0x1F ≤ p / 188 ∧ A = p / 188 + 0xC1) := by
        split at hA <;> omega
      have hB' : (p % 188 < 0x3F ∧ B = p % 188 + 0x40) ∨ (0x3F ≤ p % 188 ∧ B = p % 188 + 0x41) := by
        split at hB <;> omega
      clear hA hB
      have eA : A % 256 = A := by omega
      have eB : B % 256 = B := by omega
      have ep : ((A - if A < 0xA0 then 0x81 else 0xC1) * 188 + B - if B < 0x7F then 0x40 else 0x41) % 65536 = p := by
        split <;> split <;> omega
      apply codes2 (s := A)
      · simp only [sjisD, eA]
        rw [if_neg (by simp), if_neg (by omega), if_neg (by omega), if_pos (by omega)]
      · simp only [sjisD, eB]
        rw [if_pos (by omega), if_pos (by omega), ep]
        dsimp only
        rw [if_neg (by omega), h1]

/-! ### GBK and gb18030 -/

theorem gb_plain (gbk : Bool) : Plain (gbE gbk) := by
  refine ⟨rfl, fun c => ?_⟩
  simp only [gbE]
  split
  · exact Or.inr (Or.inl ⟨_, rfl⟩)
  split
  · exact Or.inr (Or.inr ⟨_, rfl⟩)
  split
  · exact Or.inr (Or.inl ⟨_, rfl⟩)
  split
  · exact Or.inr (Or.inl ⟨_, rfl⟩)
  split
  · exact Or.inr (Or.inr ⟨_, rfl⟩)
  split
  · exact Or.inl rfl
  · exact Or.inr (Or.inl ⟨_, rfl⟩)

theorem gb_ascii {c : Nat} (h : c ≤ 0x7F) : Codes gbD GbD.init [c % 256] c := by
  apply codes1
  have e : c % 256 = c := by omega
  simp only [gbD, GbD.init, e]
  rw [if_neg (by simp), if_neg (by simp), if_neg (by simp), if_pos (by omega)]

theorem gb_two {c p : Nat} (hp : Verif.Model.Table.pointer ptr0Gb18030 ptr1Gb18030 c = some p) :
    Codes gbD GbD.init
      [(p / 190 + 0x81) % 256, (p % 190 + if p % 190 < 0x3F then 0x40 else 0x41) % 256] c := by
  obtain ⟨h1, h2⟩ := agree_gb.pointer hp
  have h2 : p < 23940 := h2
  have ea : (p / 190 + 0x81) % 256 = p / 190 + 0x81 := by omega
  rw [ea]
  generalize hB : (p % 190 + if p % 190 < 0x3F then 0x40 else 0x41) % 256 = B
  have hB' : (p % 190 < 0x3F ∧ B = p % 190 + 0x40) ∨ (0x3F ≤ p % 190 ∧ B = p % 190 + 0x41) := by
    split at hB <;> omega
  clear hB
  have eB : B % 256 = B := by omega
  have ep : (p / 190 + 0x81 - 0x81) * 190 + (B - if B < 0x7F then 0x40 else 0x41) = p := by
    split <;> omega
  apply codes2 (s := ⟨p / 190 + 0x81, 0, 0⟩)
  · simp only [gbD, GbD.init, ea]
    rw [if_neg (by simp), if_neg (by simp), if_neg (by simp), if_neg (by omega), if_neg (by omega), if_pos (by omega)]
  · simp only [gbD, eB]
    rw [if_neg (by simp), if_neg (by simp), if_pos (by omega), if_neg (by omega), if_pos (by omega), ep]
    simp only [Option.bind_some, h1]
    rfl

theorem gb_four {c p : Nat} (hp : p ≤ 39419) (hc : rangesCodePoint p = some (some c)) :
    Codes gbD GbD.init [(p / 12600 % 256 + 0x81) % 256, (p % 12600 / 1260 % 256 + 0x30) % 256,
      (p % 12600 % 1260 / 10 % 256 + 0x81) % 256, (p % 12600 % 1260 % 10 % 256 + 0x30) % 256] c := by
  have e1 : (p / 12600 % 256 + 0x81) % 256 = p / 12600 + 0x81 := by omega
  have e2 : (p % 12600 / 1260 % 256 + 0x30) % 256 = p % 12600 / 1260 + 0x30 := by omega
  have e3 : (p % 12600 % 1260 / 10 % 256 + 0x81) % 256 = p % 12600 % 1260 / 10 + 0x81 := by omega
  have e4 : (p % 12600 % 1260 % 10 % 256 + 0x30) % 256 = p % 12600 % 1260 % 10 + 0x30 := by omega
  rw [e1, e2, e3, e4]
  have f1 : (p / 12600 + 0x81) % 256 = p / 12600 + 0x81 := by omega
  have f2 : (p % 12600 / 1260 + 0x30) % 256 = p % 12600 / 1260 + 0x30 := by omega
  have f3 : (p % 12600 % 1260 / 10 + 0x81) % 256 = p % 12600 % 1260 / 10 + 0x81 := by omega
  have f4 : (p % 12600 % 1260 % 10 + 0x30) % 256 = p % 12600 % 1260 % 10 + 0x30 := by omega
  clear e1 e2 e3 e4
  have ep : (p / 12600 + 0x81 - 0x81) * 12600 + (p % 12600 / 1260 + 0x30 - 0x30) * 1260 +
      (p % 12600 % 1260 / 10 + 0x81 - 0x81) * 10 + (p % 12600 % 1260 % 10 + 0x30) - 0x30 = p := by omega
  apply codes4 (s1 := ⟨p / 12600 + 0x81, 0, 0⟩) (s2 := ⟨p / 12600 + 0x81, p % 12600 / 1260 + 0x30, 0⟩)
    (s3 := ⟨p / 12600 + 0x81, p % 12600 / 1260 + 0x30, p % 12600 % 1260 / 10 + 0x81⟩)
  · simp only [gbD, GbD.init, f1]
    rw [if_neg (by simp), if_neg (by simp), if_neg (by simp), if_neg (by omega), if_neg (by omega), if_pos (by omega)]
  · simp only [gbD, f2]
    rw [if_neg (by simp), if_neg (by simp), if_pos (by omega), if_pos (by omega)]
  · simp only [gbD, f3]
    rw [if_neg (by simp), if_pos (by omega), if_pos (by omega)]
  · simp only [gbD, f4]
    rw [if_pos (by omega), if_neg (by omega), ep, hc]
    rfl

theorem gbk_codes {c : Nat} {bs : List Nat} (h : gbE true () (.val c) = some (.bytes bs, (), [])) :
    Codes gbD GbD.init bs c := by
  simp only [gbE] at h
  split at h
  · cases h; exact gb_ascii (by assumption)
  split at h
  · cases h
  split at h
  · rename_i hc
    cases h
    rw [hc.2]
    exact codes1 rfl
  split at h
  · cases h
    exact gb_two (by assumption)
  · simp at h

end Verif.Proof.LegacyRun
