import Verif.Proof.HtmlRoundTrip3
/-
No carriage returns, the longest name, and a small table of names.
-/
namespace Verif.Proof.HtmlRoundTrip
open Verif.Model.HtmlTok Verif.Spec.HtmlTokBridge Verif.Proof.HtmlTok Verif.Spec.HtmlRoundTrip
open Verif.Spec.HtmlTok (steps step start Refs C Env longest longestTo)
open Verif.Spec.HtmlAtom (codes)
open Verif.Spec.Infra (normNL)
open Verif.Spec.HtmlSerial (escape Dom Data HtmlElement voidNames rawNames write writes)
variable {σ : Type}

theorem normNL_none (s : List Nat) (h : 0xD ∉ s) : normNL s = s := by
  induction s with
  | nil => rfl
  | cons c s ih =>
    rw [Verif.Proof.Infra.normNL_cons c s (by rintro rfl; simp at h), ih (by simp at h; tauto)]

theorem last_none (s : List Nat) (h : 0xD ∉ s) : s.getLast? ≠ some 13 := fun hl => h (List.mem_of_getLast? hl)

theorem escape_small (attr : Bool) (s : List Nat) (h : ∀ c ∈ s, Verif.Spec.IsScalar c) : ∀ c ∈ escape attr s, c < 2 ^ 32 := by
  induction s with
  | nil => simp [escape]
  | cons d s ih =>
    intro c hc
    rw [escape_cons, List.mem_append] at hc
    rcases hc with hc | hc
    · have hd : d < 2 ^ 32 := by
        have := h d (by simp)
        unfold Verif.Spec.IsScalar at this
        omega
      simp only [escape, List.flatMap_cons, List.flatMap_nil, List.append_nil] at hc
      split_ifs at hc
      · revert c; decide
      · revert c; decide
      · revert c; decide
      · revert c; decide
      · revert c; decide
      · simp only [List.mem_singleton] at hc; omega
    · exact ih (fun x hx => h x (by simp [hx])) c hc

theorem escape_cr (attr : Bool) (s : List Nat) (h : 0xD ∉ s) : 0xD ∉ escape attr s := by
  induction s with
  | nil => simp [escape]
  | cons c s ih =>
    rw [escape_cons, List.mem_append, not_or]
    refine ⟨?_, ih (by simp at h; tauto)⟩
    have hc : ¬ (13 : Nat) = c := by rintro rfl; simp at h
    simp only [escape, List.flatMap_cons, List.flatMap_nil, List.append_nil]
    split_ifs
    · decide
    · decide
    · decide
    · decide
    · decide
    · simpa using hc

theorem attrsOut_cr (l : List Spec.HtmlSerial.Attr) (h : ∀ a ∈ l, PlainAttr a) : 0xD ∉ Spec.HtmlSerial.attrsOut l := by
  unfold Spec.HtmlSerial.attrsOut
  rw [List.mem_flatMap]
  rintro ⟨a, ha, hm⟩
  obtain ⟨hns, _, hn, _, hv⟩ := h a ha
  have hname : Spec.HtmlSerial.attrName a = a.name := by simp [Spec.HtmlSerial.attrName, hns]
  simp only [hname, List.mem_append] at hm
  rcases hm with (((hm | hm) | hm) | hm) | hm
  · revert hm; decide
  · exact (hn _ hm).1.1 (by simp)
  · revert hm; decide
  · exact escape_cr true _ hv hm
  · revert hm; decide

mutual
theorem write_cr (par : Data) (hpar : ¬ HtmlElement rawNames par) : ∀ (D : Dom), Plain D → 0xD ∉ write par D
  | .mk (.element ns pre name attrs) ks, hD => by
    unfold Plain at hD
    obtain ⟨rfl, hn, hraw, ha, _, _, hks⟩ := hD
    have htag : Spec.HtmlSerial.tagName Spec.HtmlSerial.htmlNs pre name = name := by simp [Spec.HtmlSerial.tagName]
    have hname : 0xD ∉ name := fun h => (hn.2 _ h).1 (by simp)
    have h1 := attrsOut_cr attrs ha
    have h2 := writes_cr (.element Spec.HtmlSerial.htmlNs pre name attrs) (fun h => hraw h.2) ks hks
    unfold write
    rw [htag]
    simp only [List.mem_append, not_or]
    refine ⟨⟨⟨⟨by decide, hname⟩, h1⟩, by decide⟩, ?_⟩
    split_ifs
    · simp
    · simp only [List.mem_append, not_or]
      exact ⟨⟨⟨h2, by decide⟩, hname⟩, by decide⟩
  | .mk (.text s) _, hD => by
    unfold Plain at hD
    unfold write
    rw [if_neg hpar]
    exact escape_cr false s hD
  | .mk (.comment s) _, hD => by
    unfold Plain at hD
    unfold write
    simp only [List.mem_append, not_or]
    exact ⟨⟨by decide, hD.2.1⟩, by decide⟩
  | .mk (.doctype name) _, hD => by
    unfold Plain at hD
    unfold write
    simp only [List.mem_append, not_or]
    exact ⟨⟨by decide, fun h => (hD.2 _ h).1 (by simp)⟩, by decide⟩
  | .mk (.pi _ _) _, hD => by unfold Plain at hD; exact hD.elim
  | .mk .other _, hD => by unfold Plain at hD; exact hD.elim

theorem writes_cr (par : Data) (hpar : ¬ HtmlElement rawNames par) : ∀ (ks : List Dom), PlainAll ks → 0xD ∉ writes par ks
  | [], _ => by unfold writes; simp
  | n :: r, hD => by
    unfold PlainAll at hD
    unfold writes
    rw [List.mem_append, not_or]
    exact ⟨write_cr par hpar n hD.1, writes_cr par hpar r hD.2⟩
end

/-- A plain tree is one that the serializer writes as the standard says. -/
theorem plain_serial : ∀ (ks : List Dom), PlainAll ks → Spec.HtmlSerial.Plains ks := by
  intro ks h
  exact go ks h
where
  one : ∀ (D : Dom), Plain D → Spec.HtmlSerial.Plain D
    | .mk (.element ns pre name attrs) ks, hD => by
      unfold Plain at hD
      obtain ⟨rfl, _, _, ha, _, hv, hks⟩ := hD
      unfold Spec.HtmlSerial.Plain
      refine ⟨fun h => hv h.2, fun a h => .inr ?_, go ks hks⟩
      rw [(ha a h).1]; simp
    | .mk (.text _) _, _ => by unfold Spec.HtmlSerial.Plain; trivial
    | .mk (.comment _) _, _ => by unfold Spec.HtmlSerial.Plain; trivial
    | .mk (.doctype _) _, _ => by unfold Spec.HtmlSerial.Plain; trivial
    | .mk (.pi _ _) _, _ => by unfold Spec.HtmlSerial.Plain; trivial
    | .mk .other _, _ => by unfold Spec.HtmlSerial.Plain; trivial
  go : ∀ (ks : List Dom), PlainAll ks → Spec.HtmlSerial.Plains ks
    | [], _ => by unfold Spec.HtmlSerial.Plains; trivial
    | n :: r, h => by
      unfold PlainAll at h
      unfold Spec.HtmlSerial.Plains
      exact ⟨one n h.1, go r h.2⟩

/-- A name that is in front of no other name. -/
theorem longest_exact (refs : Refs) (n cps : List Nat) (h0 : n ≠ []) (h1 : refs.find? (fun r => r.1 == n) = some (n, cps))
    (h2 : ∀ r ∈ refs, n <+: r.1 → r.1 = n) (l : List Nat) : longest refs (n ++ l) = some (n, cps) := by
  have key : ∀ m, n.length ≤ m → longestTo refs (n ++ l) m = some (n, cps) := by
    intro m
    induction m with
    | zero => intro h; exact absurd (List.eq_nil_of_length_eq_zero (by omega)) h0
    | succ m ih =>
      intro hm
      unfold longestTo
      have htake : (n ++ l).take (m + 1) = n ++ l.take (m + 1 - n.length) := by
        rw [List.take_append, List.take_of_length_le hm]
      split
      · rename_i r hr
        have hr1 : r.1 = (n ++ l).take (m + 1) := by simpa using List.find?_some hr
        have : r.1 = n := h2 r (List.mem_of_find?_eq_some hr) (by rw [hr1, htake]; exact List.prefix_append _ _)
        rw [← hr1, this, h1] at hr
        exact hr.symm
      · rename_i hr
        by_cases hm' : n.length ≤ m
        · exact ih hm'
        · have : m + 1 = n.length := by omega
          rw [this, List.take_left, h1] at hr
          exact absurd hr (by simp)
  exact key _ (by simp)

/-- The five names that the serializer writes. -/
def five : Refs := [(codes "amp;", [0x26]), (codes "nbsp;", [0xA0]), (codes "quot;", [0x22]), (codes "lt;", [0x3C]), (codes "gt;", [0x3E])]

theorem knows_five : Knows five := by
  intro p hp r
  refine longest_exact five p.1 [p.2] ?_ ?_ ?_ r
  · revert p; decide
  · revert p; decide
  · revert p; decide

def fiveFind : Find := fun s => some ((longest five s).map fun r => (r.1, r.2.headD 0, 0))

theorem agree_five : Agree (fun _ => True) fiveFind five := by
  intro s _
  refine ⟨_, rfl, ?_⟩
  cases h : longest five s with
  | none => rfl
  | some r =>
    have hm : r ∈ five := (longestTo_mem h).1
    have : ∀ r ∈ five, [r.2.headD 0] = r.2 := by decide
    simp only [Option.map_some]
    rw [if_neg (by simp), this r hm]

end Verif.Proof.HtmlRoundTrip
