import Verif.Proof.UrlStep
/- Calls of the URL parser as the API makes them. -/
namespace Verif.Proof.UrlApi
open Verif.Model.Infra Verif.Model.Unicode Verif.Model.Coder Verif.Model.Legacy Verif.Model.Percent Verif.Model.Host Verif.Model.Url
open Verif.Spec Verif.Spec.Percent Verif.Spec.Host Verif.Spec.Url
open Verif.Proof.UrlInner Verif.Proof.UrlEnds Verif.Proof.UrlValid Verif.Proof.UrlStep
open Verif.Props.Percent

theorem cleaned_le (s : List Nat) : (cleaned s).length ≤ s.length := List.length_filter_le _ _

theorem cleaned_mem {s : List Nat} {c : Nat} (h : c ∈ cleaned s) : c ∈ s ∧ c ≠ 0x0A := by
  unfold cleaned at h
  rw [List.mem_filter] at h
  refine ⟨h.1, fun hc => ?_⟩
  rw [hc] at h
  exact absurd h.2 (by decide)

theorem trimmed_le (s : List Nat) : (trimmed s).length ≤ s.length := by
  unfold trimmed
  rw [List.length_reverse]
  have h1 := (List.dropWhile_sublist (l := (s.dropWhile isC0ControlOrSpace).reverse) isC0ControlOrSpace).length_le
  have h2 := (List.dropWhile_sublist (l := s) isC0ControlOrSpace).length_le
  rw [List.length_reverse] at h1
  omega

theorem trimmed_mem {s : List Nat} {c : Nat} (h : c ∈ trimmed s) : c ∈ s := by
  unfold trimmed at h
  rw [List.mem_reverse] at h
  have h1 := (List.dropWhile_sublist _).mem h
  rw [List.mem_reverse] at h1
  exact (List.dropWhile_sublist _).mem h1

section
variable (toAscii : List Nat → Ec → List Nat × Ec) (fuel n : Nat) (input : List Nat)

/-- The parser that `parse` makes. -/
def parseCtx (base : Option Url) : Ctx := ⟨cleaned (trimmed input), base, none, toAscii, fuel⟩

/-- Its state at the beginning. -/
def parseSt (name : Enc) : St :=
  { state := .schemeStart, url := {}, enc := outputEncoding name, ec := if cleaned (trimmed input) ≠ input then some .validationError else none }

theorem parse_run (base : Option Url) (name : Enc) :
    parse toAscii fuel n input base name = run (parseCtx toAscii fuel input base) n (parseSt input name) := rfl

/-- The parser that `parseInto` makes. -/
def intoCtx (state : State) : Ctx := ⟨cleaned input, none, some state, toAscii, fuel⟩

/-- Its state at the beginning. -/
def intoSt (url : Url) (state : State) : St :=
  { state := state, url := url, ec := if cleaned input ≠ input then some .validationError else none }

theorem into_run (url : Url) (state : State) :
    parseInto toAscii fuel n input url state = run (intoCtx toAscii fuel input state) n (intoSt input url state) := rfl

variable (hs : ∀ c ∈ input, IsScalar c) (hf : 9 * input.length + 20 ≤ fuel)
include hs hf

theorem parse_cinv (base : Option Url) : CInv (parseCtx toAscii fuel input base) := by
  refine ⟨fun c hc => hs c (trimmed_mem (cleaned_mem hc).1), ?_⟩
  have := cleaned_le (trimmed input)
  have := trimmed_le input
  show 9 * (cleaned (trimmed input)).length + 20 ≤ fuel
  omega

theorem into_cinv (state : State) : CInv (intoCtx toAscii fuel input state) := by
  refine ⟨fun c hc => hs c (cleaned_mem hc).1, ?_⟩
  have := cleaned_le input
  show 9 * (cleaned input).length + 20 ≤ fuel
  omega

omit hs hf

theorem parse_tinv (base : Option Url) (name : Enc) (hn : outputEncoding name ≠ .ISO_2022_JP) :
    TInv (parseCtx toAscii fuel input base) (parseSt input name) := by
  refine ⟨by simp [parseSt], by simp [parseSt], by simp [parseSt], hn, ?_⟩
  simp [Shape, parseSt, parseCtx]

theorem into_tinv (url : Url) (state : State) (hsh : Shape (intoCtx toAscii fuel input state) (intoSt input url state)) :
    TInv (intoCtx toAscii fuel input state) (intoSt input url state) :=
  ⟨by simp [intoSt], by simp [intoSt], by simp [intoSt], by simp [intoSt], hsh⟩

include hs hf in
theorem parse_ends (base : Option Url) (name : Enc) (hn : outputEncoding name ≠ .ISO_2022_JP) (hl : 48 * input.length + 101 ≤ n) :
    (∃ b s', parse toAscii fuel n input base name = .stop (b, s')) ∨
      parse toAscii fuel n input base name = .ub ∧ ∃ s', Cause (parseCtx toAscii fuel input base) s' := by
  have ht := parse_tinv toAscii fuel input base name hn
  have := mu_le ht
  have h1 := cleaned_le (trimmed input)
  have h2 := trimmed_le input
  have h3 : (parseCtx toAscii fuel input base).input.length = (cleaned (trimmed input)).length := rfl
  exact run_ends (parse_cinv toAscii fuel input hs hf base) n (parseSt input name) ht (by omega)

include hs hf in
theorem into_ends (url : Url) (state : State) (hsh : Shape (intoCtx toAscii fuel input state) (intoSt input url state))
    (hl : 48 * input.length + 101 ≤ n) :
    (∃ b s', parseInto toAscii fuel n input url state = .stop (b, s')) ∨
      parseInto toAscii fuel n input url state = .ub ∧ ∃ s', Cause (intoCtx toAscii fuel input state) s' := by
  have ht := into_tinv toAscii fuel input url state hsh
  have := mu_le ht
  have h1 := cleaned_le input
  have h3 : (intoCtx toAscii fuel input state).input.length = (cleaned input).length := rfl
  exact run_ends (into_cinv toAscii fuel input hs hf state) n (intoSt input url state) ht (by omega)

variable (hA : ∀ q d, toAscii q none = (d, none) → d ≠ [])

include hs hf hA in
theorem parse_valid (base : Option Url) (hb : ∀ b, base = some b → ValidUrl b) (name : Enc) (hn : outputEncoding name ≠ .ISO_2022_JP)
    (s' : St) (h : parse toAscii fuel n input base name = .stop (true, s')) : ValidUrl s'.url := by
  refine run_valid (parse_cinv toAscii fuel input hs hf base) ⟨fun h => (cleaned_mem h).2 rfl, hb, hA⟩ n _ _ _
    (parse_tinv toAscii fuel input base name hn) ?_ h (Or.inl rfl)
  rw [vn rfl]
  exact ⟨rfl, rfl⟩

include hs hf hA in
theorem into_valid (url : Url) (state : State) (hsh : Shape (intoCtx toAscii fuel input state) (intoSt input url state))
    (hv : VO (intoSt input url state)) (b : Bool)
    (s' : St) (h : parseInto toAscii fuel n input url state = .stop (b, s')) : ValidUrl s'.url := by
  refine run_valid (into_cinv toAscii fuel input hs hf state) ⟨fun h => (cleaned_mem h).2 rfl, (by intro b hb; cases hb), hA⟩ n _ _ _
    (into_tinv toAscii fuel input url state hsh) ?_ h (Or.inr (by simp [intoCtx]))
  rw [vo (by simp [intoCtx])]
  exact hv

end

/-! ### The setters -/

/-- The entry states of the setters, with the record they are given. -/
inductive Entry (u : Url) : Url → State → Prop
  | protocol : Entry u u .schemeStart
  | host : u.cannotBeBase = false → Entry u u .host
  | hostname : u.cannotBeBase = false → Entry u u .hostname
  | port : cannotHaveCredentials u = some false → Entry u u .port
  | pathname : u.cannotBeBase = false → Entry u { u with path := [] } .pathStart
  | search : Entry u { u with query := some [] } .query
  | hash : Entry u { u with fragment := some [] } .fragment

theorem may_have {u : Url} (h : cannotHaveCredentials u = some false) :
    u.scheme ≠ codes "file" ∧ u.cannotBeBase = false ∧ ∃ k, u.host = some k ∧ ¬ Blank k := by
  unfold cannotHaveCredentials at h
  cases hh : u.host with
  | none => rw [hh] at h; simp at h
  | some k =>
    rw [hh] at h
    dsimp only at h
    cases hq : hostEq k [] with
    | none => rw [hq] at h; simp at h
    | some b =>
      rw [hq] at h
      simp only [Option.some.injEq, Bool.or_eq_false_iff, beq_eq_false_iff_ne] at h
      refine ⟨h.2, h.1.2, k, rfl, ?_⟩
      cases k with
      | domain d => simp [Blank]
      | «opaque» d => simp [hostEq, h.1.1] at hq; exact fun he => by rw [Blank] at he; exact absurd he hq
      | _ => simp [hostEq] at hq

theorem entry_shape {u v : Url} {st : State} (hu : ValidUrl u) (h : Entry u v st) (toAscii : List Nat → Ec → List Nat × Ec) (fuel : Nat)
    (input : List Nat) : Shape (intoCtx toAscii fuel input st) (intoSt input v st) := by
  cases h with
  | protocol =>
    refine ⟨rfl, fun _ hf => ?_⟩
    exact (hu.special (by rw [show u.scheme = codes "file" from hf]; exact file_special)).1
  | host h => simp [Shape, intoSt]
  | hostname h => simp [Shape, intoSt]
  | port h => simp [Shape, intoSt]
  | pathname h => simp [Shape, intoSt]
  | search => simp [Shape, intoSt]
  | hash => simp [Shape, intoSt]

theorem entry_vo {u v : Url} {st : State} (hu : ValidUrl u) (h : Entry u v st) (input : List Nat) : VO (intoSt input v st) := by
  cases h with
  | protocol => exact ⟨hu, rfl⟩
  | host h => exact ⟨hu, h⟩
  | hostname h => exact ⟨hu, h⟩
  | port h => exact ⟨hu, (may_have h).1, (may_have h).2.2⟩
  | pathname h => exact (valid_core hu h).setPath [] (by intro p hp; cases hp)
  | search => exact valid_setQuery hu _ (by intro t ht; injection ht with ht; subst ht; intro c hc; cases hc)
  | hash => exact valid_setFragment hu _ (by intro t ht; injection ht with ht; subst ht; intro c hc; cases hc)

theorem after_stop {e : Ends (Bool × St)} {v : Url} (h : after e = .stop v) : ∃ b s', e = .stop (b, s') ∧ s'.url = v := by
  cases e with
  | stop p => obtain ⟨b, s'⟩ := p; injection h with h; exact ⟨b, s', rfl, h⟩
  | ub => cases h
  | more => cases h

theorem after_more {e : Ends (Bool × St)} (h : after e = .more) : e = .more := by
  cases e with
  | stop p => cases h
  | ub => cases h
  | more => rfl

theorem after_ub {e : Ends (Bool × St)} (h : after e = .ub) : e = .ub := by
  cases e with
  | stop p => cases h
  | ub => rfl
  | more => cases h

theorem withoutFirst_mem {c d : Nat} {s : List Nat} (h : d ∈ withoutFirst c s) : d ∈ s := by
  unfold withoutFirst at h
  split at h
  · exact List.mem_of_mem_tail h
  · exact h

theorem withoutFirst_le (c : Nat) (s : List Nat) : (withoutFirst c s).length ≤ s.length := by
  unfold withoutFirst
  split
  · simp
  · exact Nat.le_refl _

theorem valid_setUsername {u : Url} (h : ValidUrl u) (hh : ∃ k, u.host = some k ∧ ¬ Blank k) (hf : u.scheme ≠ codes "file") (t : List Nat)
    (ht : ∀ c ∈ t, ¬ InSet .userinfo c) : ValidUrl { u with username := t } :=
  ⟨h.scheme, ht, h.password, h.host, h.port, h.query, h.fragment, h.special, fun h => absurd h hf, fun _ => hh, h.cannot, h.path⟩

theorem valid_setPassword {u : Url} (h : ValidUrl u) (hh : ∃ k, u.host = some k ∧ ¬ Blank k) (hf : u.scheme ≠ codes "file") (t : List Nat)
    (ht : ∀ c ∈ t, ¬ InSet .userinfo c) : ValidUrl { u with password := t } :=
  ⟨h.scheme, h.username, ht, h.host, h.port, h.query, h.fragment, h.special, fun h => absurd h hf, fun _ => hh, h.cannot, h.path⟩

end Verif.Proof.UrlApi
