import Verif.Proof.HtmlSerialInj
/- The HTML serializer writes scalar values; readable trees are plain. -/
namespace Verif.Proof.HtmlSerial
open Verif.Model.Unicode Verif.Spec Verif.Spec.HtmlAtom Verif.Props.Unicode
open Verif.Spec.HtmlSerial (Shown Str ShowsAttr ShowsAttrs ShowsData Shows ShowsAll HtmlElement voidNames rawNames htmlNs
  Dom KnownNs Plain Plains Decodes Readable Readables Occurs)

theorem scalar_codes (s : String) (h : ∀ c ∈ codes s, c < 128) : ∀ c ∈ codes s, IsScalar c := scalar_of_lt h

theorem scalar_append {s t : List Nat} (h : ∀ c ∈ s, IsScalar c) (h' : ∀ c ∈ t, IsScalar c) : ∀ c ∈ s ++ t, IsScalar c := by
  intro c hc
  rcases List.mem_append.mp hc with hc | hc
  · exact h c hc
  · exact h' c hc

theorem scalar_escape (attr : Bool) (s : List Nat) (h : ∀ c ∈ s, IsScalar c) : ∀ c ∈ Spec.HtmlSerial.escape attr s, IsScalar c := by
  rw [escape_esc]
  intro c hc
  obtain ⟨d, hd, hm⟩ := List.mem_flatMap.mp hc
  rcases esc_cases attr d with ⟨_, e⟩ | ⟨_, e⟩ | ⟨_, e⟩ | ⟨_, e⟩ | ⟨_, e⟩ | ⟨e, _⟩ <;> rw [e] at hm
  · exact scalar_codes "&amp;" (by decide +kernel) c hm
  · exact scalar_codes "&nbsp;" (by decide +kernel) c hm
  · exact scalar_codes "&quot;" (by decide +kernel) c hm
  · exact scalar_codes "&lt;" (by decide +kernel) c hm
  · exact scalar_codes "&gt;" (by decide +kernel) c hm
  · rw [List.mem_singleton] at hm
    rw [hm]; exact h d hd

theorem scalar_qualified (p s : List Nat) (hp : ∀ c ∈ p, IsScalar c) (hs : ∀ c ∈ s, IsScalar c) :
    ∀ c ∈ Spec.HtmlSerial.qualified p s, IsScalar c := by
  unfold Spec.HtmlSerial.qualified
  split
  · exact hs
  · exact scalar_append (scalar_append hp (scalar_codes ":" (by decide +kernel))) hs

theorem scalar_attrs (ct : CharT) : ∀ (l : List Model.HtmlSerial.Attr) (m : List Spec.HtmlSerial.Attr), ShowsAttrs ct l m →
    ∀ c ∈ Spec.HtmlSerial.attrsOut m, IsScalar c
  | [], [], _ => by simp [Spec.HtmlSerial.attrsOut]
  | a :: l, b :: m, h => by
    unfold ShowsAttrs at h
    obtain ⟨⟨_, h2, h3, h4⟩, h5⟩ := h
    have ih := scalar_attrs ct l m h5
    show ∀ c ∈ codes " " ++ Spec.HtmlSerial.attrName b ++ codes "=\"" ++ Spec.HtmlSerial.escape true b.val ++ codes "\"" ++
      Spec.HtmlSerial.attrsOut m, IsScalar c
    have hn : ∀ c ∈ Spec.HtmlSerial.attrName b, IsScalar c := by
      unfold Spec.HtmlSerial.attrName
      split
      · exact h3.2.1
      split
      · exact scalar_append (scalar_codes "xml:" (by decide +kernel)) h3.2.1
      split
      · exact scalar_codes "xmlns" (by decide +kernel)
      split
      · exact scalar_append (scalar_codes "xmlns:" (by decide +kernel)) h3.2.1
      split
      · exact scalar_append (scalar_codes "xlink:" (by decide +kernel)) h3.2.1
      · exact scalar_qualified _ _ h2.1 h3.2.1
    exact scalar_append (scalar_append (scalar_append (scalar_append (scalar_append (scalar_codes " " (by decide +kernel)) hn)
      (scalar_codes "=\"" (by decide +kernel))) (scalar_escape true _ h4.1)) (scalar_codes "\"" (by decide +kernel))) ih
  | [], _ :: _, h => by unfold ShowsAttrs at h; exact h.elim
  | _ :: _, [], h => by unfold ShowsAttrs at h; exact h.elim

mutual
theorem scalar_write (ct : CharT) (P : Spec.HtmlSerial.Data) : ∀ (n : Model.HtmlSerial.Node) (D : Dom), Shows ct n D →
    ∀ c ∈ Spec.HtmlSerial.write P D, IsScalar c
  | .mk (.element e) ks, .mk (.element ns pre name attrs) ks', h => by
    unfold Shows at h
    obtain ⟨⟨h1, h2, h3, h4⟩, h5⟩ := h
    have ih := scalar_writes ct (.element ns pre name attrs) ks ks' h5
    have hn : ∀ c ∈ Spec.HtmlSerial.tagName ns pre name, IsScalar c := by
      unfold Spec.HtmlSerial.tagName
      split
      · exact h3.2.1
      · exact scalar_qualified _ _ h2.1 h3.2.1
    rw [Spec.HtmlSerial.write]
    refine scalar_append (scalar_append (scalar_append (scalar_append (scalar_codes "<" (by decide +kernel)) hn)
      (scalar_attrs ct _ _ h4)) (scalar_codes ">" (by decide +kernel))) ?_
    split
    · simp
    · exact scalar_append (scalar_append (scalar_append ih (scalar_codes "</" (by decide +kernel))) hn)
        (scalar_codes ">" (by decide +kernel))
  | .mk (.text u) ks, .mk (.text s) ks', h => by
    unfold Shows at h
    rw [Spec.HtmlSerial.write]
    split
    · exact h.1.1
    · exact scalar_escape false s h.1.1
  | .mk (.comment u) ks, .mk (.comment s) ks', h => by
    unfold Shows at h
    rw [Spec.HtmlSerial.write]
    exact scalar_append (scalar_append (scalar_codes "<!--" (by decide +kernel)) h.1.1) (scalar_codes "-->" (by decide +kernel))
  | .mk (.pi u v) ks, .mk (.pi s t) ks', h => by
    unfold Shows at h
    rw [Spec.HtmlSerial.write]
    exact scalar_append (scalar_append (scalar_append (scalar_append (scalar_codes "<?" (by decide +kernel)) h.1.1.1)
      (scalar_codes " " (by decide +kernel))) h.1.2.1) (scalar_codes ">" (by decide +kernel))
  | .mk (.doctype u) ks, .mk (.doctype s) ks', h => by
    unfold Shows at h
    rw [Spec.HtmlSerial.write]
    exact scalar_append (scalar_append (scalar_codes "<!DOCTYPE " (by decide +kernel)) h.1.1) (scalar_codes ">" (by decide +kernel))
  | n, .mk .other ks', h => by simp [Spec.HtmlSerial.write]
  | .mk (.text _) _, .mk (.element _ _ _ _) _, h => by unfold Shows at h; exact h.1.elim
  | .mk (.comment _) _, .mk (.element _ _ _ _) _, h => by unfold Shows at h; exact h.1.elim
  | .mk (.pi _ _) _, .mk (.element _ _ _ _) _, h => by unfold Shows at h; exact h.1.elim
  | .mk (.doctype _) _, .mk (.element _ _ _ _) _, h => by unfold Shows at h; exact h.1.elim
  | .mk .document _, .mk (.element _ _ _ _) _, h => by unfold Shows at h; exact h.1.elim
  | .mk .fragment _, .mk (.element _ _ _ _) _, h => by unfold Shows at h; exact h.1.elim
  | .mk (.element _) _, .mk (.text _) _, h => by unfold Shows at h; exact h.1.elim
  | .mk (.comment _) _, .mk (.text _) _, h => by unfold Shows at h; exact h.1.elim
  | .mk (.pi _ _) _, .mk (.text _) _, h => by unfold Shows at h; exact h.1.elim
  | .mk (.doctype _) _, .mk (.text _) _, h => by unfold Shows at h; exact h.1.elim
  | .mk .document _, .mk (.text _) _, h => by unfold Shows at h; exact h.1.elim
  | .mk .fragment _, .mk (.text _) _, h => by unfold Shows at h; exact h.1.elim
  | .mk (.element _) _, .mk (.comment _) _, h => by unfold Shows at h; exact h.1.elim
  | .mk (.text _) _, .mk (.comment _) _, h => by unfold Shows at h; exact h.1.elim
  | .mk (.pi _ _) _, .mk (.comment _) _, h => by unfold Shows at h; exact h.1.elim
  | .mk (.doctype _) _, .mk (.comment _) _, h => by unfold Shows at h; exact h.1.elim
  | .mk .document _, .mk (.comment _) _, h => by unfold Shows at h; exact h.1.elim
  | .mk .fragment _, .mk (.comment _) _, h => by unfold Shows at h; exact h.1.elim
  | .mk (.element _) _, .mk (.pi _ _) _, h => by unfold Shows at h; exact h.1.elim
  | .mk (.text _) _, .mk (.pi _ _) _, h => by unfold Shows at h; exact h.1.elim
  | .mk (.comment _) _, .mk (.pi _ _) _, h => by unfold Shows at h; exact h.1.elim
  | .mk (.doctype _) _, .mk (.pi _ _) _, h => by unfold Shows at h; exact h.1.elim
  | .mk .document _, .mk (.pi _ _) _, h => by unfold Shows at h; exact h.1.elim
  | .mk .fragment _, .mk (.pi _ _) _, h => by unfold Shows at h; exact h.1.elim
  | .mk (.element _) _, .mk (.doctype _) _, h => by unfold Shows at h; exact h.1.elim
  | .mk (.text _) _, .mk (.doctype _) _, h => by unfold Shows at h; exact h.1.elim
  | .mk (.comment _) _, .mk (.doctype _) _, h => by unfold Shows at h; exact h.1.elim
  | .mk (.pi _ _) _, .mk (.doctype _) _, h => by unfold Shows at h; exact h.1.elim
  | .mk .document _, .mk (.doctype _) _, h => by unfold Shows at h; exact h.1.elim
  | .mk .fragment _, .mk (.doctype _) _, h => by unfold Shows at h; exact h.1.elim

theorem scalar_writes (ct : CharT) (P : Spec.HtmlSerial.Data) : ∀ (l : List Model.HtmlSerial.Node) (k : List Dom), ShowsAll ct l k →
    ∀ c ∈ Spec.HtmlSerial.writes P k, IsScalar c
  | [], [], _ => by simp [Spec.HtmlSerial.writes]
  | n :: l, D :: k, h => by
    unfold ShowsAll at h
    rw [Spec.HtmlSerial.writes]
    exact scalar_append (scalar_write ct P n D h.1) (scalar_writes ct P l k h.2)
  | [], _ :: _, h => by unfold ShowsAll at h; exact h.elim
  | _ :: _, [], h => by unfold ShowsAll at h; exact h.elim
end

mutual
theorem readable_plain (P : Spec.HtmlSerial.Data) : ∀ D : Dom, Readable P D → Plain D
  | .mk (.element ns pre name attrs) ks, h => by
    unfold Readable at h
    obtain ⟨h1, h2, h3, h4, h5, h6⟩ := h
    unfold Plain
    exact ⟨fun x => h5 x.2, fun a ha => .inl (h4 a ha).2.1, readables_plains _ ks h6⟩
  | .mk (.text _) _, _ => by unfold Plain; trivial
  | .mk (.comment _) _, _ => by unfold Plain; trivial
  | .mk (.pi _ _) _, _ => by unfold Plain; trivial
  | .mk (.doctype _) _, _ => by unfold Plain; trivial
  | .mk .other _, _ => by unfold Plain; trivial

theorem readables_plains (P : Spec.HtmlSerial.Data) : ∀ k : List Dom, Readables P k → Plains k
  | [], _ => by unfold Plains; trivial
  | D :: k, h => by
    unfold Readables at h
    unfold Plains
    exact ⟨readable_plain P D h.1, readables_plains P k h.2.1⟩
end

end Verif.Proof.HtmlSerial
