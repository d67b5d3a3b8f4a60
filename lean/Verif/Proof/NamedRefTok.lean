import Verif.Proof.NamedRef3
import Verif.Proof.HtmlTokConf
import Verif.Proof.HtmlRoundTrip4
import Verif.Spec.NamedRefText
/-
The tokenizer with the library's table of named character references.
-/
namespace Verif.Proof.NamedRef
open Verif.Model.NamedRef Verif.Spec.NamedRef Verif.Spec.HtmlTok Verif.Proof.HtmlTok
open Verif.Model.HtmlTok (M Sink)
open Verif.Spec.Infra (normNL)
open Verif.Spec.HtmlAtom (codes)
open Verif.Spec.HtmlTokBridge (SwitchOk envOf Trouble)
variable {σ : Type}

theorem find_safe (s : List Nat) (hs : ∀ c ∈ s, c < 2 ^ 32) (h : SafeRef s) :
    ∃ r, find s = some r ∧ (r.map fun (n, a, b) => (n, if b ≠ 0 then [a, b] else [a])) = longest names s := by
  cases hm : Verif.Model.NamedRef.matchLoop heap s 1 1 0 0 with
  | none =>
    rcases h with ⟨h1, h2⟩ | ⟨x, hx, hl, rest, rfl⟩
    · exact absurd hm (loop_not_z s hs h1 h2)
    · exact absurd hm (loop_semi hx hl rest)
  | some res => exact find_of_loop s hs res hm

/-- A prefix that is long enough, or all there is. -/
theorem safe_prefix {s l : List Nat} (h : SafeRef (s ++ l)) (hl : 33 ≤ s.length ∨ l = []) : SafeRef s := by
  rcases hl with hl | rfl
  · rcases h with h | ⟨x, hx, h1, h2⟩
    · left
      cases s with
      | nil => simp at hl
      | cons c s => simpa using h
    · right
      refine ⟨x, hx, h1, ?_⟩
      exact List.prefix_of_prefix_length_le h2 (List.prefix_append s l) (by have := names_short x hx; omega)
  · simpa using h

/-- The text of which the buffer and what is to come are the end. -/
structure Safe (l : List Nat) (m : M σ) : Prop where
  chars : ∀ c ∈ m.inp.c ++ l, c < 2 ^ 32
  text : ∃ pre, SafeText (pre ++ (m.inp.c ++ l)) ∧ (m.st = .charRef ∨ m.st = .namedRef → pre.getLast? = some 0x26)
  eof : m.inp.eof = true → l = []

theorem safe_look {l : List Nat} {m : M σ} (h : Safe l m) (hr : Ready m) (hs : m.st = .namedRef) :
    ∃ r, find m.inp.c = some r ∧ (r.map fun (n, a, b) => (n, if b ≠ 0 then [a, b] else [a])) = longest names m.inp.c := by
  apply find_safe
  · exact fun c hc => h.chars c (List.mem_append_left _ hc)
  · obtain ⟨pre, h1, h2⟩ := h.text
    obtain ⟨pre', rfl⟩ : ∃ p, pre = p ++ [0x26] := by
      have := h2 (Or.inr hs)
      rw [List.getLast?_eq_some_iff] at this
      exact this
    have h3 := h1 pre' (m.inp.c ++ l) (by simp)
    refine safe_prefix h3 ?_
    by_cases he : m.inp.eof = true
    · exact Or.inr (h.eof he)
    · left
      by_contra hh
      refine hr.free (Or.inr (Or.inr ⟨hs, ?_⟩))
      unfold Verif.Model.HtmlInput.fill
      rw [Bool.or_eq_false_iff, beq_eq_false_iff_ne]
      exact ⟨by simpa using he, by omega⟩

theorem safe_text (S : Sink σ) : Text S find (Safe (σ := σ)) where
  base l := by
    refine ⟨?_, ?_⟩
    · intro m m1 h hi hr hs g
      obtain ⟨d, hd⟩ := g.suffix
      refine ⟨fun c hc => h.chars c ?_, ?_, fun he => h.eof (g.eof ▸ he)⟩
      · rcases List.mem_append.mp hc with hc | hc
        · exact List.mem_append_left _ (g.suffix.subset hc)
        · exact List.mem_append_right _ hc
      · obtain ⟨pre, h1, h2⟩ := h.text
        refine ⟨pre ++ d, by simpa [← hd] using h1, ?_⟩
        rintro (q | q)
        · have := g.amp q
          rw [← hd] at this
          have e : d = [0x26] := List.append_cancel_right (by simpa using this)
          rw [e]; simp
        · obtain ⟨q1, q2⟩ := g.named q
          rw [← hd] at q2
          have e : d = [] := by
            have := congrArg List.length q2
            simp at this
            exact this
          rw [e, List.append_nil]
          exact h2 (Or.inl q1)
    · intro m h hr hs
      obtain ⟨r, e, g⟩ := safe_look h hr hs
      refine ⟨r, e, ?_⟩
      rintro n a b rfl
      exact (longestTo_mem g.symm).2
  push c l m h _ := by
    refine ⟨?_, ?_, fun he => absurd (h.eof he) (by simp)⟩
    · have := h.chars
      simpa [feed1] using this
    · obtain ⟨pre, h1, h2⟩ := h.text
      exact ⟨pre, by simpa [feed1] using h1, h2⟩
  eof m h _ := ⟨h.chars, h.text, fun _ => rfl⟩

theorem safe_late : Late (Safe (σ := σ)) where
  again m h := ⟨h.chars, h.text, h.eof⟩

/-! Newlines. -/

theorem normNL_split {l p r : List Nat} (h : normNL l = p ++ 0x26 :: r) : ∃ p' r', l = p' ++ 0x26 :: r' ∧ normNL r' = r := by
  induction l using nl_induct generalizing p with
  | nil => simp [normNL] at h
  | crlf s ih =>
    rw [normNL] at h
    cases p with
    | nil => simp at h
    | cons c p =>
      obtain ⟨p', r', e, e2⟩ := ih (p := p) (List.cons.inj h).2
      exact ⟨13 :: 10 :: p', r', by simp [e], e2⟩
  | cr s hs ih =>
    rw [Infra.normNL_cr s hs] at h
    cases p with
    | nil => simp at h
    | cons c p =>
      obtain ⟨p', r', e, e2⟩ := ih (p := p) (List.cons.inj h).2
      exact ⟨13 :: p', r', by simp [e], e2⟩
  | other c s hc ih =>
    rw [Infra.normNL_cons c s hc] at h
    cases p with
    | nil =>
      simp only [List.nil_append, List.cons.injEq] at h
      exact ⟨[], s, by simp [h.1], h.2⟩
    | cons d p =>
      obtain ⟨p', r', e, e2⟩ := ih (p := p) (List.cons.inj h).2
      exact ⟨c :: p', r', by simp [e], e2⟩

theorem normNL_head (l : List Nat) (c : Nat) (hc : c ≠ 10) (h : (normNL l).head? = some c) : l.head? = some c := by
  induction l using nl_induct with
  | nil => cases h
  | crlf s _ => rw [normNL] at h; simp at h; omega
  | cr s hs _ => rw [Infra.normNL_cr s hs] at h; simp at h; omega
  | other d s hd _ => rw [Infra.normNL_cons d s hd] at h; simpa using h

theorem normNL_prefix {n l : List Nat} (hn : ∀ c ∈ n, c ≠ 13) (h : n <+: l) : n <+: normNL l := by
  induction n generalizing l with
  | nil => simp
  | cons c n ih =>
    obtain ⟨r, rfl⟩ := h
    have hc := hn c (by simp)
    rw [List.cons_append, Infra.normNL_cons c _ hc, List.cons_prefix_cons]
    exact ⟨rfl, ih (fun x hx => hn x (by simp [hx])) ⟨r, rfl⟩⟩

theorem names_no_cr {x : List Nat × List Nat} (hx : x ∈ names) : ∀ c ∈ x.1, c ≠ 13 := by
  obtain ⟨r, e, row⟩ := row_mem hx
  intro c hc
  have := row.printed c hc
  omega

theorem safe_norm {l : List Nat} (h : SafeText l) : SafeText (normNL l) := by
  intro p r e
  obtain ⟨p', r', e1, e2⟩ := normNL_split e
  rcases h p' r' e1 with ⟨a, b⟩ | ⟨x, hx, h1, h2⟩
  · left
    rw [← e2]
    exact ⟨fun q => a (normNL_head _ _ (by omega) q), fun q => b (normNL_head _ _ (by omega) q)⟩
  · right
    rw [← e2]
    exact ⟨x, hx, h1, normNL_prefix (names_no_cr hx) h2⟩

theorem safe_start (s : σ) {l : List Nat} (hl : ∀ c ∈ l, c < 2 ^ 32) (h : SafeText l) :
    Safe (normNL l) (Verif.Model.HtmlTok.init s) := by
  refine ⟨?_, ⟨[], ?_, ?_⟩, ?_⟩
  · have := normNL_chars (P := fun c => c < 2 ^ 32) (by omega) hl
    exact this
  · exact safe_norm h
  · rintro (q | q) <;> cases q
  · intro q; cases q

theorem conforms_safe (S : Sink σ) (hS : SwitchOk S) (s : σ) (l : List Nat) (hl : ∀ c ∈ l, c < 2 ^ 32) (hcr : l.getLast? ≠ some 13)
    (hz : ∀ k, (steps (envOf S) names k (start s (normNL l))).st = .namedRef →
      SafeRef (steps (envOf S) names k (start s (normNL l))).rest)
    (hx : ∀ k, ¬ Trouble S (steps (envOf S) names k (start s (normNL l)))) :
    ∃ m k, (∀ f, 24 * l.length + 39 ≤ f → Verif.Model.HtmlTok.tokenize S find f s l = some m) ∧
      m.sink = (steps (envOf S) names k (start s (normNL l))).sink ∧
      ((∀ k, (steps (envOf S) names k (start s (normNL l))).st ≠ .numericEnd) →
        (steps (envOf S) names k (start s (normNL l))).ended = true) := by
  refine conforms (fun c => c < 2 ^ 32) S hS find names names_short (by omega) s l hl hcr ?_ hx
  intro k s' l' h1 h2 h3 h4
  have := hz k h1
  rw [h2] at this
  exact find_safe s' h4 (safe_prefix this h3)

/-! The references that the serializer writes. -/

theorem mem_parts {α : Type} {x : α} {a0 a1 a2 a3 a4 a5 a6 a7 a8 a9 a10 a11 : List α} (h : ∃ l ∈ [a0, a1, a2, a3, a4, a5, a6, a7, a8, a9, a10, a11], x ∈ l) :
    x ∈ a0 ++ a1 ++ a2 ++ a3 ++ a4 ++ a5 ++ a6 ++ a7 ++ a8 ++ a9 ++ a10 ++ a11 := by
  simp only [List.mem_cons, List.not_mem_nil, or_false] at h
  obtain ⟨l, hl, hx⟩ := h
  simp only [List.mem_append]
  rcases hl with rfl | rfl | rfl | rfl | rfl | rfl | rfl | rfl | rfl | rfl | rfl | rfl <;> simp [hx]

theorem mem_names {x : List Nat × List Nat} (h : ∃ l ∈ [names0, names1, names2, names3, names4, names5, names6, names7, names8, names9, names10, names11],
    x ∈ l) : x ∈ names := by
  unfold names
  exact mem_parts h

theorem amp_name : (codes "amp;", [0x26]) ∈ names :=
  mem_names ⟨names0, by simp, List.mem_of_getElem? (i := 37) (by decide +kernel)⟩

theorem nbsp_name : (codes "nbsp;", [0xA0]) ∈ names :=
  mem_names ⟨names5, by simp, List.mem_of_getElem? (i := 138) (by decide +kernel)⟩

theorem quot_name : (codes "quot;", [0x22]) ∈ names :=
  mem_names ⟨names7, by simp, List.mem_of_getElem? (i := 158) (by decide +kernel)⟩

theorem lt_name : (codes "lt;", [0x3C]) ∈ names :=
  mem_names ⟨names5, by simp, List.mem_of_getElem? (i := 60) (by decide +kernel)⟩

theorem gt_name : (codes "gt;", [0x3E]) ∈ names :=
  mem_names ⟨names3, by simp, List.mem_of_getElem? (i := 89) (by decide +kernel)⟩

theorem zwnj_name : (codes "zwnj;", [0x200C]) ∈ names :=
  mem_names ⟨names11, by simp, List.mem_of_getElem? (i := 30) (by decide +kernel)⟩

theorem five_names (p : List Nat × Nat)
    (hp : p ∈ [(codes "amp;", 0x26), (codes "nbsp;", 0xA0), (codes "quot;", 0x22), (codes "lt;", 0x3C), (codes "gt;", 0x3E)]) :
    (p.1, [p.2]) ∈ names ∧ p.1.getLast? = some 0x3B := by
  simp only [List.mem_cons, List.not_mem_nil, or_false] at hp
  rcases hp with rfl | rfl | rfl | rfl | rfl
  · exact ⟨amp_name, by decide +kernel⟩
  · exact ⟨nbsp_name, by decide +kernel⟩
  · exact ⟨quot_name, by decide +kernel⟩
  · exact ⟨lt_name, by decide +kernel⟩
  · exact ⟨gt_name, by decide +kernel⟩

theorem knows_names : Verif.Spec.HtmlRoundTrip.Knows names := by
  intro p hp r
  obtain ⟨h1, h2⟩ := five_names p hp
  exact find_semi h1 h2 r

theorem five_safe {s : List Nat} (h : ∃ n ∈ [codes "amp;", codes "nbsp;", codes "quot;", codes "lt;", codes "gt;"], n <+: s) : SafeRef s := by
  obtain ⟨n, hn, hs⟩ := h
  obtain ⟨c, hc⟩ : ∃ c, (n, c) ∈ [(codes "amp;", 0x26), (codes "nbsp;", 0xA0), (codes "quot;", 0x22), (codes "lt;", 0x3C), (codes "gt;", 0x3E)] := by
    simp only [List.mem_cons, List.not_mem_nil, or_false] at hn
    rcases hn with rfl | rfl | rfl | rfl | rfl
    · exact ⟨0x26, by simp⟩
    · exact ⟨0xA0, by simp⟩
    · exact ⟨0x22, by simp⟩
    · exact ⟨0x3C, by simp⟩
    · exact ⟨0x3E, by simp⟩
  obtain ⟨h1, h2⟩ := five_names _ hc
  exact Or.inr ⟨_, h1, h2, hs⟩

/-- From a run of the standard's tokenizer to one of the library's. -/
theorem read_safe (S : Sink σ) (hS : SwitchOk S) (s z : σ) (w : List Nat) (hw : ∀ c ∈ w, c < 2 ^ 32) (hcr : 0xD ∉ w)
    (y : C σ) (p : HtmlRoundTrip.Path S names (start s w) y) (hy : HtmlRoundTrip.AtData [] z y) :
    ∃ m, (∀ f, 24 * w.length + 39 ≤ f → Verif.Model.HtmlTok.tokenize S find f s w = some m) ∧ m.sink = S.emit z .eof := by
  obtain ⟨h1, h2⟩ := HtmlRoundTrip.to_eof z _ y p hy
  have e := HtmlRoundTrip.normNL_none w hcr
  obtain ⟨m, k, h3, h4, h5⟩ := conforms_safe S hS s w hw (HtmlRoundTrip.last_none w hcr)
    (by rw [e]; exact fun k hk => five_safe ((h1 k).2 hk)) (by rw [e]; exact fun k => (h1 k).1.1)
  rw [e] at h4 h5
  exact ⟨m, h3, by rw [h4, h2 k (h5 fun k => (h1 k).1.2)]⟩

theorem safeText_of {t : List Nat} (h : ∀ i < t.length, t[i]? = some 0x26 → SafeRef (t.drop (i + 1))) : SafeText t := by
  rintro pre rest rfl
  have := h pre.length (by simp) (by simp)
  simpa using this

end Verif.Proof.NamedRef
