import Verif.Proof.UrlHostSet
import Verif.Proof.UrlReadAll
import Verif.Model.UrlGet
/- The parts of a URL as the texts that stand for them. -/
namespace Verif.Proof.UrlGets
open Verif.Model.Coder Verif.Model.Legacy Verif.Model.Percent Verif.Model.Host Verif.Model.Url Verif.Model.UrlGet
open Verif.Spec Verif.Spec.Infra Verif.Spec.Percent Verif.Spec.Host Verif.Spec.Url Verif.Spec.UrlSet Verif.Spec.UrlText Verif.Spec.UrlGet
open Verif.Proof.UrlInner Verif.Proof.UrlValid Verif.Proof.UrlWhole Verif.Proof.UrlRead Verif.Proof.UrlReadAll Verif.Proof.UrlHostSet
open Verif.Proof.UrlAgain Verif.Props.Percent

/-! ### Hosts -/

theorem hostPart_plain (sp : Bool) (w : List Nat) : ∀ (r : List Nat) (i : Bool),
    (∀ c ∈ w, c ≠ 0x2F ∧ c ≠ 0x5C ∧ c ≠ 0x3F ∧ c ≠ 0x23 ∧ c ≠ 0x5B ∧ c ≠ 0x5D ∧ (i = true ∨ c ≠ 0x3A)) →
    hostPart sp i (w ++ r) = (w ++ (hostPart sp i r).1, (hostPart sp i r).2) := by
  have e : codes "/?#" = [0x2F, 0x3F, 0x23] := by decide
  induction w with
  | nil => intro r i _; rfl
  | cons c w ih =>
    intro r i h
    obtain ⟨h1, h2, h3, h4, h5, h6, h7⟩ := h c (by simp)
    have hn : ¬ ((c = 0x3A ∧ i = false) ∨ c ∈ codes "/?#" ∨ (sp = true ∧ c = 0x5C)) := by
      rw [e]
      rintro (h | h | h)
      · rcases h7 with h7 | h7
        · rw [h7] at h; cases h.2
        · exact h7 h.1
      · simp at h; omega
      · exact h2 h.2
    rw [List.cons_append, hostPart, if_neg hn]
    simp only [if_neg h5, if_neg h6]
    rw [ih r i fun d hd => h d (by simp [hd])]
    rfl

theorem hostPart_bracket (sp : Bool) (w r : List Nat)
    (h : ∀ c ∈ w, c ≠ 0x2F ∧ c ≠ 0x5C ∧ c ≠ 0x3F ∧ c ≠ 0x23 ∧ c ≠ 0x5B ∧ c ≠ 0x5D) :
    hostPart sp false (0x5B :: (w ++ [0x5D]) ++ r) = (0x5B :: (w ++ [0x5D]) ++ (hostPart sp false r).1, (hostPart sp false r).2) := by
  have e : codes "/?#" = [0x2F, 0x3F, 0x23] := by decide
  have hw := hostPart_plain sp w (0x5D :: r) true fun c hc => by
    obtain ⟨h1, h2, h3, h4, h5, h6⟩ := h c hc
    exact ⟨h1, h2, h3, h4, h5, h6, Or.inl rfl⟩
  have h2 : hostPart sp true (0x5D :: r) = (0x5D :: (hostPart sp false r).1, (hostPart sp false r).2) := by
    rw [hostPart, if_neg (by rw [e]; simp)]
    simp
  rw [List.cons_append, hostPart, if_neg (by rw [e]; simp)]
  simp only [if_true]
  rw [List.append_assoc, List.singleton_append, hw, h2]
  simp

/-- The texts behind a host that end it. -/
def Behind (r : List Nat) : Prop := r = [] ∨ ∃ t, r = 0x3A :: t

theorem behind_part (sp : Bool) {r : List Nat} (h : Behind r) : hostPart sp false r = ([], r) := by
  rcases h with rfl | ⟨t, rfl⟩
  · rfl
  · simp [hostPart]

theorem host_split {u : Url} (hv : ValidUrl u) {h : Host} (hh : u.host = some h) {w : List Nat} (hw : serializeHost h = some w) (sp : Bool)
    {r : List Nat} (hr : Behind r) : hostPart sp false (w ++ r) = (w, r) := by
  have hg := hv.host h hh
  have plain : (∀ c ∈ w, c ≠ 0x2F ∧ c ≠ 0x5C ∧ c ≠ 0x3F ∧ c ≠ 0x23 ∧ c ≠ 0x5B ∧ c ≠ 0x5D ∧ c ≠ 0x3A) → hostPart sp false (w ++ r) = (w, r) := by
    intro hc
    rw [hostPart_plain sp w r false fun c h => by
      obtain ⟨h1, h2, h3, h4, h5, h6, h7⟩ := hc c h
      exact ⟨h1, h2, h3, h4, h5, h6, Or.inr h7⟩, behind_part sp hr]
    simp
  cases h with
  | null => cases hw
  | empty =>
    obtain rfl : ([] : List Nat) = w := by simpa [serializeHost] using hw
    exact behind_part sp hr
  | domain d =>
    obtain rfl : d = w := by simpa [serializeHost] using hw
    refine plain fun c hc => ?_
    have := forbidden_ne (hg.2.2 c hc)
    omega
  | ipv4 n =>
    rw [serializeHost, Verif.Proof.Host4.dotted_eq n hg.2] at hw
    injection hw with hw
    subst hw
    refine plain fun c hc => ?_
    have := dottedChars n c hc
    omega
  | ipv6 a =>
    obtain rfl : 0x5B :: (serializeIpv6 a ++ [0x5D]) = w := by simpa [serializeHost] using hw
    rw [hostPart_bracket sp (serializeIpv6 a) r fun c hc => ?_, behind_part sp hr]
    · simp
    · have := v6Chars (compressOf a) a 0 false c hc
      omega
  | «opaque» s =>
    obtain rfl : s = w := by simpa [serializeHost] using hw
    refine plain fun c hc => ?_
    rcases (hg.2 c hc).2.2 with rfl | h
    · decide
    · have := forbidden_ne h
      omega

/-! ### Texts that are stored as they are -/

theorem encoded_all {p : PSet} {s : List Nat} (h : ∀ c ∈ s, ¬ InSet p c) : encoded p s = s := enc_all h

theorem joined_all {s : List Nat} (h : ∀ c ∈ s, Stays c) : joined s = s := by
  unfold joined
  rw [List.filter_eq_self]
  intro c hc
  obtain ⟨h1, h2, h3, _⟩ := h c hc
  simp [h1, h2, h3]

theorem scalar_stays {s : List Nat} (h : ∀ c ∈ s, Stays c) : ∀ c ∈ s, IsScalar c := fun c hc => by
  have := (h c hc).2.2.2
  unfold IsScalar
  omega

/-! ### Paths -/

theorem pieces_segs {sep : Nat → Bool} (h0 : sep 0x2F = true) : ∀ (ps : List (List Nat)) (p : List Nat), (∀ c ∈ p, sep c = false) →
    (∀ q ∈ ps, ∀ c ∈ q, sep c = false) → pieces sep (p ++ segsText ps) = p :: ps := by
  intro ps
  induction ps with
  | nil =>
    intro p hp _
    simp only [segsText, List.flatMap_nil, List.append_nil]
    induction p with
    | nil => rfl
    | cons c p ih =>
      rw [pieces, if_neg (by rw [hp c (by simp)]; simp), ih fun d hd => hp d (by simp [hd])]
  | cons q ps ihs =>
    intro p hp hps
    have e : segsText (q :: ps) = 0x2F :: (q ++ segsText ps) := by simp [segsText]
    rw [e]
    induction p with
    | nil =>
      rw [List.nil_append, pieces, if_pos h0, ihs q (hps q (by simp)) fun r hr => hps r (by simp [hr])]
    | cons c p ih =>
      rw [List.cons_append, pieces, if_neg (by rw [hp c (by simp)]; simp), ih fun d hd => hp d (by simp [hd])]

theorem dot_iff {p : List Nat} (h : ¬ DotSegment p) : ¬ Up p ∧ ¬ Here p := by
  unfold DotSegment at h
  unfold Up Here
  constructor
  · intro h'
    refine h ?_
    simp only [List.mem_cons, List.not_mem_nil, or_false] at h' ⊢
    rcases h' with h' | h' | h' | h'
    · exact Or.inr (Or.inr (Or.inl h'))
    · exact Or.inr (Or.inr (Or.inr (Or.inl h')))
    · exact Or.inr (Or.inr (Or.inr (Or.inr (Or.inl h'))))
    · exact Or.inr (Or.inr (Or.inr (Or.inr (Or.inr h'))))
  · intro h'
    refine h ?_
    simp only [List.mem_cons, List.not_mem_nil, or_false] at h' ⊢
    rcases h' with h' | h'
    · exact Or.inl h'
    · exact Or.inr (Or.inl h')

theorem walk_all (file : Bool) : ∀ (ps qs : List (List Nat)), (∀ p ∈ ps, ¬ DotSegment p) →
    (file = true → qs = [] → ∀ p, ps.head? = some p → ∀ a, p = [a, 0x7C] → ¬ Letter a) → walk file qs ps = qs ++ ps := by
  have key : ∀ (last : Bool) (p : List Nat) (qs : List (List Nat)), ¬ DotSegment p → (file = true → qs = [] → ∀ a, p = [a, 0x7C] → ¬ Letter a) →
      enter file last qs p = qs ++ [p] := by
    intro last p qs hd hf
    obtain ⟨h1, h2⟩ := dot_iff hd
    unfold enter child
    rw [if_neg h1, if_neg h2]
    congr 2
    split
    · rename_i h
      obtain ⟨h3, h4, h5⟩ := h
      unfold Drive at h5
      split at h5
      · rename_i a b
        have e : codes ":|" = [0x3A, 0x7C] := by decide
        have e2 : codes ":" = [0x3A] := by decide
        rw [e] at h5
        simp only [List.mem_cons, List.not_mem_nil, or_false] at h5
        rcases h5.2 with rfl | rfl
        · simp [e2]
        · refine absurd ?_ (hf h3 h4 a rfl)
          have := h5.1
          unfold Lower Verif.Spec.Infra.lower at this
          unfold Letter
          split at this <;> omega
      · exact absurd h5 id
    · rfl
  intro ps
  induction ps with
  | nil => intro qs _ _; simp [walk]
  | cons p ps ih =>
    intro qs hd hf
    have h1 : ∀ last, enter file last qs p = qs ++ [p] := fun last => key last p qs (hd p (by simp)) fun h3 h4 a ha => hf h3 h4 p rfl a ha
    cases ps with
    | nil => rw [walk, h1]
    | cons q ps =>
      rw [walk, h1, ih (qs ++ [p]) (fun r hr => hd r (by simp [hr])) (by simp)]
      simp

theorem path_text {u : Url} (hv : ValidUrl u) (hb : u.cannotBeBase = false)
    (hdrive : u.scheme = codes "file" → ∀ a, u.path.head? = some [a, 0x7C] → ¬ Letter a) :
    pathOf u.scheme (joined (segsText u.path)) = u.path := by
  rw [joined_all fun c hc => (segs_chars hv hb c hc).1]
  unfold pathOf
  dsimp only
  generalize hsep : (fun c => decide (c = 0x2F ∨ (Special u.scheme ∧ c = 0x5C))) = sep
  have h0 : sep 0x2F = true := by rw [← hsep]; simp
  have hp := hv.path hb
  cases hps : u.path with
  | nil =>
    have hns : ¬ Special u.scheme := fun h => (hv.special h).2.1 hps
    rw [if_pos ⟨hns, rfl⟩]
  | cons p ps =>
    rw [hps] at hp hdrive
    have e : segsText (p :: ps) = 0x2F :: (p ++ segsText ps) := by simp [segsText]
    have hc : ∀ q ∈ p :: ps, ∀ c ∈ q, sep c = false := by
      intro q hq c hc
      obtain ⟨-, h⟩ := hp q hq
      obtain ⟨-, h2, h3⟩ := h c hc
      rw [← hsep]
      simp only [decide_eq_false_iff_not]
      rintro (h | ⟨h, h'⟩)
      · exact h2 h
      · exact h3 h h'
    have hm : (p :: ps).map (encoded .path) = p :: ps := by
      conv_rhs => rw [← List.map_id (p :: ps)]
      refine List.map_congr_left fun q hq => ?_
      exact encoded_all fun c hc => ((hp q hq).2 c hc).1
    rw [if_neg (by rw [e]; simp), e, unmarked, if_pos h0, pieces_segs h0 ps p (hc p (by simp)) fun q hq => hc q (by simp [hq]), hm,
      walk_all _ (p :: ps) [] (fun q hq => (hp q hq).1)]
    · rfl
    · intro hf _ q hq a ha
      refine hdrive (of_decide_eq_true hf) a ?_
      rw [hq, ha]

end Verif.Proof.UrlGets
