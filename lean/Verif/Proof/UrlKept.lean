import Verif.Proof.UrlRead
import Verif.Props.Url
/- What every step of the URL parser keeps of hosts and ports. -/
namespace Verif.Proof.UrlKept
open Verif.Model.Infra Verif.Model.Unicode Verif.Model.Coder Verif.Model.Legacy Verif.Model.Percent Verif.Model.Host Verif.Model.Url
open Verif.Spec Verif.Spec.Percent Verif.Spec.Host Verif.Spec.Url Verif.Spec.UrlText
open Verif.Proof.UrlInner Verif.Proof.UrlEnds Verif.Proof.UrlValid Verif.Proof.UrlStep Verif.Proof.UrlApi Verif.Proof.UrlPort
open Verif.Proof.UrlAgain Verif.Proof.UrlWhole Verif.Proof.UrlRead

theorem parse_domain {toAscii : List Nat → Ec → List Nat × Ec} {fuel : Nat} {w d : List Nat} {b : Bool} {e : Ec}
    (h : parseHost toAscii fuel w b none = .stop (.domain d, e)) :
    ∃ q e, toAscii q none = (d, none) ∧ parseIpv4 d none = some (.opaque d, e) := by
  unfold parseHost at h
  split at h
  · split at h
    · simp at h
    · rcases Verif.Proof.HostParse.parse_kind _ _ _ _ _ h with h | ⟨a, h⟩ <;> cases h
  split at h
  · unfold parseOpaqueHost at h
    split at h
    · simp at h
    · dsimp only at h
      split at h <;> simp at h
  split at h
  · simp at h
  split at h
  · cases h
  · cases h
  split at h
  · cases h
  · cases h
  split at h
  · simp at h
  · rename_i q hq
    split at h
    · simp at h
    split at h
    · cases h
    · simp at h
    · simp at h
    · rename_i e' hn4 hp
      simp only [Ends.stop.injEq, Prod.mk.injEq, Host.domain.injEq] at h
      obtain ⟨rfl, rfl⟩ := h
      rcases Verif.Props.Host.parseIpv4_cases _ _ _ _ hp with rfl | rfl | ⟨n, rfl, _⟩
      all_goals first | exact ⟨_, _, hq, hp⟩ | simp_all

/-- What an iteration may do. -/
def KOk (x : Ctx) : Step → Prop
  | .cont s' => Kept x.toAscii s'.url
  | .ret s' => Kept x.toAscii s'.url
  | .failure s' => Kept x.toAscii s'.url
  | _ => True

theorem Kept.of {toAscii : List Nat → Ec → List Nat × Ec} {u v : Url} (h : Kept toAscii u) (h1 : v.host = u.host) (h2 : v.port = u.port) :
    Kept toAscii v := ⟨fun d hd => h.domain d (by rw [← h1, hd]), fun p hp => h.port p (by rw [← h2, hp])⟩

theorem push_same {u v : Url} {b : List Nat} {slash : Bool} (h : pushSegment u b slash = some v) : v.host = u.host ∧ v.port = u.port := by
  unfold pushSegment at h
  split at h
  · cases h
  · obtain ⟨ps, hs, _⟩ := shorten_path u
    rw [hs] at h
    simp only [Option.some.injEq] at h
    subst h
    split <;> exact ⟨rfl, rfl⟩
  · split at h
    · simp only [Option.some.injEq] at h
      subst h
      split <;> exact ⟨rfl, rfl⟩
    · simp only [Option.some.injEq] at h
      subst h
      exact ⟨rfl, rfl⟩

theorem hostOf_k {x : Ctx} {s : St} {k : St → Step} (h : Kept x.toAscii s.url) (hk : ∀ t : St, Kept x.toAscii t.url → KOk x (k t)) :
    KOk x (hostOf x s k) := by
  unfold hostOf
  split
  · trivial
  · trivial
  · rename_i ho e hp
    dsimp only
    split
    · show Kept _ _
      split <;> exact h
    · refine hk _ ⟨fun d hd => ?_, fun p hpo => ?_⟩
      · simp only [Option.some.injEq] at hd
        subst hd
        exact parse_domain hp
      · refine h.port p ?_
        split at hpo <;> exact hpo

theorem hostname_k {x : Ctx} {s : St} (h : Kept x.toAscii s.url) : KOk x (onHostname x s (x.at s.pos)) := by
  unfold onHostname
  generalize hs1 : (if x.override ≠ none ∧ s.url.scheme = lit "file" then { s with pos := s.pos - 1, state := .fileHost } else s) = s1
  have h1 : Kept x.toAscii s1.url := by subst hs1; split <;> exact h
  dsimp only
  split
  · split
    · exact h1
    · refine hostOf_k h1 fun t ht => ?_
      split <;> exact ht
  · split
    · split
      · exact h1
      · split
        · exact h1
        · refine hostOf_k h1 fun t ht => ?_
          split <;> exact ht
    · show Kept _ _
      repeat' split
      all_goals exact h1

theorem step_kept {x : Ctx} {s : St} (hb : ∀ b, x.base = some b → Kept x.toAscii b) (h : Kept x.toAscii s.url) : KOk x (step x s) := by
  unfold step
  dsimp only
  split
  · unfold onSchemeStart; repeat' split
    all_goals first | trivial | exact ⟨h.1, h.2⟩
  · unfold onScheme afterScheme; dsimp only; repeat' split
    all_goals first | trivial | exact ⟨h.1, h.2⟩ | exact ⟨h.1, by simp⟩ | (show Kept _ _; split <;> first | exact ⟨h.1, h.2⟩ | exact ⟨h.1, by simp⟩) | (refine Kept.of h ?_ ?_ <;> simp; done)
  · unfold onNoScheme; repeat' split
    all_goals first | trivial | exact ⟨h.1, h.2⟩
  · unfold onSpecialRelativeOrAuthority; repeat' split
    all_goals first | trivial | exact ⟨h.1, h.2⟩
  · unfold onPathOrAuthority; repeat' split
    all_goals first | trivial | exact ⟨h.1, h.2⟩
  · unfold onRelative; dsimp only
    split
    · trivial
    · rename_i b hbb
      have := hb b hbb
      repeat' split
      all_goals first | trivial | exact ⟨h.1, h.2⟩ | exact ⟨this.1, this.2⟩
  · unfold onRelativeSlash
    split
    · refine Kept.of h ?_ ?_ <;> simp
    split
    · exact ⟨h.1, h.2⟩
    split
    · trivial
    · rename_i b hbb
      have := hb b hbb
      exact ⟨this.1, this.2⟩
  · unfold onSpecialAuthoritySlashes; repeat' split
    all_goals first | trivial | exact ⟨h.1, h.2⟩
  · unfold onSpecialAuthorityIgnoreSlashes; repeat' split
    all_goals first | trivial | exact ⟨h.1, h.2⟩
  · unfold onAuthority; dsimp only; repeat' split
    all_goals first | trivial | exact ⟨h.1, h.2⟩
  · exact hostname_k h
  · exact hostname_k h
  · unfold onPort; dsimp only
    split
    · exact ⟨h.1, h.2⟩
    split
    · split
      · exact ⟨h.1, h.2⟩
      · rename_i hlt
        have key : ∀ t : St, (t = if s.buffer ≠ [] then
            { s with
              url := { s.url with
                port := if some (portOf s.buffer) = defaultPort s.url.scheme then none else some (portOf s.buffer) }
              buffer := [] }
          else s) → Kept x.toAscii t.url := by
          rintro t rfl
          split
          · rename_i hne
            refine ⟨h.1, fun p hp => ?_⟩
            dsimp only at hp
            split at hp
            · cases hp
            · injection hp with hp
              subst hp
              by_contra hh
              exact hlt ⟨hne, Or.inr (by omega)⟩
          · exact h
        have := key _ rfl
        split
        · exact this
        · exact ⟨this.1, this.2⟩
    · exact ⟨h.1, h.2⟩
  · unfold onFile; dsimp only
    split
    · refine ⟨by simp, ?_⟩
      intro p hp
      exact h.port p (by simpa using hp)
    split
    · exact ⟨by simp, h.2⟩
    · rename_i b hbb
      have := hb b hbb
      repeat' split
      all_goals first | exact ⟨this.1, h.2⟩ | exact ⟨by simp, h.2⟩ | skip
      obtain ⟨ps, hs, _⟩ := shorten_path { s.url with scheme := lit "file", host := b.host, path := b.path, query := none }
      show Kept _ (shortenPath _)
      rw [hs]
      exact ⟨this.1, h.2⟩
  · unfold onFileSlash; dsimp only
    split
    · refine Kept.of h ?_ ?_ <;> simp
    split
    · exact ⟨h.1, h.2⟩
    · rename_i b hbb
      have := hb b hbb
      split
      · show Kept _ (ite _ _ _)
        split <;> exact ⟨this.1, h.2⟩
      · exact ⟨h.1, h.2⟩
  · unfold onFileHost; dsimp only
    split
    · split
      · exact ⟨h.1, h.2⟩
      split
      · split <;> exact ⟨by simp, h.2⟩
      split
      · trivial
      · trivial
      · rename_i ho e hp
        split
        · show Kept _ _
          split <;> exact h
        split
        · trivial
        · rename_i b hbe
          have key : ∀ t : St, t.url.port = s.url.port → t.url.host = some (if b then .empty else ho) → Kept x.toAscii t.url := by
            intro t h1 h2
            refine ⟨fun d hd => ?_, fun p hpp => h.port p (by rw [← h1, hpp])⟩
            rw [h2] at hd
            cases b
            · simp only [Bool.false_eq_true, if_false, Option.some.injEq] at hd
              subst hd
              exact parse_domain hp
            · simp at hd
          split
          · refine key _ ?_ ?_
            · dsimp only; split <;> rfl
            · rfl
          · refine key ({ state := _, url := _, buffer := _, atSignSeen := _, insideBrackets := _, passwordTokenSeen := _, pos := _, ec := _, enc := _ } : St) ?_ ?_
            · dsimp only; split <;> rfl
            · rfl
    · exact ⟨h.1, h.2⟩
  · unfold onPathStart; dsimp only; repeat' split
    all_goals first | trivial | exact ⟨h.1, h.2⟩ | (refine Kept.of h ?_ ?_ <;> simp)
  · unfold onPath; dsimp only
    split
    · split
      · trivial
      · rename_i u hu
        simp only [badIf_url, badIf_buffer] at hu
        obtain ⟨h1, h2⟩ := push_same hu
        have hk : Kept x.toAscii u := Kept.of h h1 h2
        repeat' split
        all_goals exact ⟨hk.1, hk.2⟩
    · split
      · trivial
      · trivial
      · refine Kept.of h ?_ ?_ <;> simp
  · unfold onCannotBeABase; dsimp only; repeat' split
    all_goals first | trivial | exact ⟨h.1, h.2⟩ | (refine Kept.of h ?_ ?_ <;> simp)
  · unfold onQuery; dsimp only
    generalize hs1 : (if s.enc ≠ .UTF_8 ∧ (isSpecial s.url = false ∨ s.url.scheme = lit "ws" ∨ s.url.scheme = lit "wss") then
      { s with enc := .UTF_8 } else s) = s1
    have h1 : Kept x.toAscii s1.url := by subst hs1; split <;> exact h
    repeat' split
    all_goals first | trivial | exact ⟨h1.1, h1.2⟩ | (refine Kept.of h1 ?_ ?_ <;> simp)
  · unfold onFragment; dsimp only; repeat' split
    all_goals first | trivial | exact ⟨h.1, h.2⟩ | (refine Kept.of h ?_ ?_ <;> simp)

theorem run_kept {x : Ctx} (hb : ∀ b, x.base = some b → Kept x.toAscii b) : ∀ (n : Nat) (s : St) (b : Bool) (s' : St), Kept x.toAscii s.url →
    run x n s = .stop (b, s') → Kept x.toAscii s'.url := by
  intro n
  induction n with
  | zero => intro s b s' _ h; cases h
  | succ n ih =>
    intro s b s' hs h
    have hk := step_kept hb hs
    rw [run] at h
    cases hst : step x s with
    | ub => rw [hst] at h; cases h
    | more => rw [hst] at h; cases h
    | failure t => rw [hst] at h hk; injection h with h; injection h with _ h; exact h ▸ hk
    | ret t => rw [hst] at h hk; injection h with h; injection h with _ h; exact h ▸ hk
    | cont t =>
      rw [hst] at h hk
      dsimp only at h
      split at h
      · exact ih { t with pos := t.pos + 1 } b s' hk h
      · injection h with h; injection h with _ h; exact h ▸ hk

theorem into_kept {toAscii : List Nat → Ec → List Nat × Ec} {fuel n : Nat} {t : List Nat} {u v w : Url} {st : State} (hu : Kept toAscii u)
    (h1 : v.host = u.host) (h2 : v.port = u.port) (h : after (parseInto toAscii fuel n t v st) = .stop w) : Kept toAscii w := by
  obtain ⟨b, s', h3, rfl⟩ := after_stop h
  unfold parseInto at h3
  refine run_kept (x := ⟨_, _, _, toAscii, fuel⟩) ?_ _ _ _ _ (Kept.of hu h1 h2) h3
  intro b hb
  cases hb

theorem call_kept {toAscii : List Nat → Ec → List Nat × Ec} {fuel n : Nat} {u v : Url} {s : List Nat} {op : Verif.Props.Url.Setter} (hu : Kept toAscii u)
    (h : op.call toAscii fuel n u s = .stop v) : Kept toAscii v := by
  cases op with
  | protocol => exact into_kept (u := u) hu (by exact rfl) (by exact rfl) h
  | username =>
    change setUsername fuel u s = _ at h
    unfold setUsername at h
    repeat' split at h
    all_goals first | (cases h; done) | (injection h with h; subst h; exact ⟨hu.1, hu.2⟩)
  | password =>
    change setPassword fuel u s = _ at h
    unfold setPassword at h
    repeat' split at h
    all_goals first | (cases h; done) | (injection h with h; subst h; exact ⟨hu.1, hu.2⟩)
  | host =>
    change setHost toAscii fuel n u s = _ at h
    unfold setHost at h
    split at h
    · injection h with h; subst h; exact hu
    · exact into_kept (u := u) hu (by exact rfl) (by exact rfl) h
  | hostname =>
    change setHostname toAscii fuel n u s = _ at h
    unfold setHostname at h
    split at h
    · injection h with h; subst h; exact hu
    · exact into_kept (u := u) hu (by exact rfl) (by exact rfl) h
  | port =>
    change setPort toAscii fuel n u s = _ at h
    unfold setPort at h
    split at h
    · cases h
    · injection h with h; subst h; exact hu
    · split at h
      · injection h with h; subst h; exact ⟨hu.1, by simp⟩
      · exact into_kept (u := u) hu (by exact rfl) (by exact rfl) h
  | pathname =>
    change setPathname toAscii fuel n u s = _ at h
    unfold setPathname at h
    split at h
    · injection h with h; subst h; exact hu
    · exact into_kept (u := u) hu (by exact rfl) (by exact rfl) h
  | search =>
    change setSearch toAscii fuel n u s = _ at h
    unfold setSearch at h
    split at h
    · injection h with h; subst h; exact ⟨hu.1, hu.2⟩
    · exact into_kept (u := u) hu (by exact rfl) (by exact rfl) h
  | hash =>
    change setHash toAscii fuel n u s = _ at h
    unfold setHash at h
    split at h
    · injection h with h; subst h; exact ⟨hu.1, hu.2⟩
    · exact into_kept (u := u) hu (by exact rfl) (by exact rfl) h

theorem reachable_kept {toAscii : List Nat → Ec → List Nat × Ec} {u : Url} (h : Verif.Props.Url.Reachable toAscii u) : Kept toAscii u := by
  induction h with
  | @parse input base name fuel n s' _ _ _ _ h ih =>
    unfold parse at h
    refine run_kept (x := ⟨_, _, _, toAscii, fuel⟩) (fun b hb => ih b hb) _ _ _ _ ?_ h
    exact ⟨by simp, by simp⟩
  | set _ _ _ h ih => exact call_kept ih h

end Verif.Proof.UrlKept
