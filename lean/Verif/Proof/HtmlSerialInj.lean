import Verif.Proof.HtmlSerialRead
/- What the HTML serializer writes determines the tree. -/
namespace Verif.Proof.HtmlSerial
open Verif.Model.Unicode Verif.Spec Verif.Spec.HtmlAtom Verif.Props.Unicode
open Verif.Spec.HtmlSerial hiding Attr

/-- Splitting at the first element with `P`. -/
theorem split_at (P : Nat → Prop) : ∀ (s t u v : List Nat), (∀ c ∈ s, ¬ P c) → (∀ c ∈ t, ¬ P c) →
    (∀ c ∈ u.head?, P c) → (∀ c ∈ v.head?, P c) → s ++ u = t ++ v → s = t ∧ u = v
  | [], [], u, v, _, _, _, _, h => ⟨rfl, by simpa using h⟩
  | [], c :: t, u, v, _, ht, hu, _, h => by
    rw [List.nil_append] at h
    subst h
    exact absurd (hu c (by simp)) (ht c (by simp))
  | c :: s, [], u, v, hs, _, _, hv, h => by
    rw [List.nil_append] at h
    subst h
    exact absurd (hv c (by simp)) (hs c (by simp))
  | c :: s, d :: t, u, v, hs, ht, hu, hv, h => by
    simp only [List.cons_append, List.cons.injEq] at h
    obtain ⟨rfl, h⟩ := h
    obtain ⟨a, b⟩ := split_at P s t u v (fun x hx => hs x (by simp [hx])) (fun x hx => ht x (by simp [hx])) hu hv h
    exact ⟨by rw [a], b⟩

/-- Splitting at a character. -/
theorem split_char (k : Nat) (s t u v : List Nat) (hs : k ∉ s) (ht : k ∉ t) (h : s ++ k :: u = t ++ k :: v) :
    s = t ∧ u = v := by
  obtain ⟨a, b⟩ := split_at (· = k) s t (k :: u) (k :: v) (fun c hc e => hs (e ▸ hc)) (fun c hc e => ht (e ▸ hc))
    (by simp) (by simp) h
  exact ⟨a, by simpa using b⟩

theorem close_codes : codes "-->" = [0x2D, 0x2D, 0x3E] := by decide +kernel
theorem slash_codes : codes "</" = [0x3C, 0x2F] := by decide +kernel

theorem comment_le (s t u v : List Nat) (hs : ¬ Occurs (codes "-->") t) (hl : s.length ≤ t.length)
    (h : s ++ (codes "-->" ++ u) = t ++ (codes "-->" ++ v)) : s = t ∧ u = v := by
  obtain ⟨w, rfl⟩ : ∃ w, t = s ++ w := by
    have h1 := congrArg (List.take s.length) h
    rw [List.take_left' rfl, List.take_append_of_le_length hl] at h1
    exact ⟨t.drop s.length, by conv_lhs => rw [← List.take_append_drop s.length t, ← h1]⟩
  rw [List.append_assoc] at h
  have h := List.append_cancel_left h
  rw [close_codes] at h hs
  rcases w with _ | ⟨a, _ | ⟨b, _ | ⟨c, w⟩⟩⟩
  · simpa using h
  · simp at h
  · simp at h
  · simp only [List.cons_append, List.nil_append, List.cons.injEq] at h
    obtain ⟨rfl, rfl, rfl, h⟩ := h
    exact absurd ⟨s, w, by simp⟩ hs

theorem comment_split (s t u v : List Nat) (hs : ¬ Occurs (codes "-->") s) (ht : ¬ Occurs (codes "-->") t)
    (h : s ++ (codes "-->" ++ u) = t ++ (codes "-->" ++ v)) : s = t ∧ u = v := by
  rcases Nat.le_total s.length t.length with hl | hl
  · exact comment_le s t u v ht hl h
  · obtain ⟨a, b⟩ := comment_le t s v u hs hl h.symm
    exact ⟨a.symm, b.symm⟩

/-- What follows the children of an element. -/
def Tail (r : List Nat) : Prop := r = [] ∨ ∃ r', r = 0x3C :: 0x2F :: r'

theorem raw_le (s t u v : List Nat) (ht : ¬ Occurs (codes "</") t) (hu : Tail u) (hv : Tail v)
    (hl : s.length ≤ t.length) (h : s ++ u = t ++ v) : s = t ∧ u = v := by
  obtain ⟨w, rfl⟩ : ∃ w, t = s ++ w := by
    have h1 := congrArg (List.take s.length) h
    rw [List.take_left' rfl, List.take_append_of_le_length hl] at h1
    exact ⟨t.drop s.length, by conv_lhs => rw [← List.take_append_drop s.length t, ← h1]⟩
  rw [List.append_assoc] at h
  have h := List.append_cancel_left h
  rw [slash_codes] at ht
  rcases w with _ | ⟨a, w⟩
  · simpa using h
  · exfalso
    rcases hu with rfl | ⟨u', rfl⟩
    · simp at h
    · rcases w with _ | ⟨b, w⟩
      · rcases hv with rfl | ⟨v', rfl⟩ <;> simp at h
      · simp only [List.cons_append, List.cons.injEq] at h
        obtain ⟨rfl, rfl, h⟩ := h
        exact ht ⟨s, w, by simp⟩

theorem raw_split (s t u v : List Nat) (hs : ¬ Occurs (codes "</") s) (ht : ¬ Occurs (codes "</") t) (hu : Tail u) (hv : Tail v)
    (h : s ++ u = t ++ v) : s = t ∧ u = v := by
  rcases Nat.le_total s.length t.length with hl | hl
  · exact raw_le s t u v ht hu hv hl h
  · obtain ⟨a, b⟩ := raw_le t s v u hs hv hu hl h.symm
    exact ⟨a.symm, b.symm⟩

/-- The kind of what comes next. -/
def cls : List Nat → Nat
  | 0x3C :: 0x2F :: _ => 0
  | 0x3C :: 0x21 :: 0x2D :: _ => 2
  | 0x3C :: 0x21 :: _ => 3
  | 0x3C :: 0x3F :: _ => 4
  | 0x3C :: _ => 5
  | [] => 0
  | _ => 6

def kind : Data → Nat
  | .element .. => 5
  | .text _ => 6
  | .comment _ => 2
  | .pi .. => 4
  | .doctype _ => 3
  | .other => 7

theorem cls_tail (r : List Nat) (h : Tail r) : cls r = 0 := by
  rcases h with rfl | ⟨r', rfl⟩ <;> rfl

theorem cls_elem (c : Nat) (r : List Nat) (h : (65 ≤ c ∧ c ≤ 90) ∨ (97 ≤ c ∧ c ≤ 122)) : cls (0x3C :: c :: r) = 5 := by
  unfold cls
  split
  case h_1 e => simp only [List.cons.injEq] at e; omega
  case h_2 e => simp only [List.cons.injEq] at e; omega
  case h_3 e => simp only [List.cons.injEq] at e; omega
  case h_4 e => simp only [List.cons.injEq] at e; omega
  case h_5 => rfl
  case h_6 e => cases e
  case h_7 h5 _ => exact (h5 _ rfl).elim

theorem cls_text (c : Nat) (r : List Nat) (h : c ≠ 0x3C) : cls (c :: r) = 6 := by
  unfold cls
  split <;> first | rfl | (rename_i e; simp only [List.cons.injEq] at e; omega) | (rename_i e; cases e)

theorem name_html (ns pre name : List Nat) (h : ns = htmlNs) : tagName ns pre name = name := by
  unfold tagName; rw [if_pos (.inl h)]

theorem name_attr (a : Spec.HtmlSerial.Attr) (h : ReadableAttr a) : attrName a = a.name := by
  unfold attrName; rw [if_pos h.1]

theorem lt1 : codes "<" = [0x3C] := by decide +kernel
theorem gt1 : codes ">" = [0x3E] := by decide +kernel
theorem sp1 : codes " " = [0x20] := by decide +kernel
theorem qt1 : codes "\"" = [0x22] := by decide +kernel
theorem eq1 : codes "=\"" = [0x3D, 0x22] := by decide +kernel
theorem com1 : codes "<!--" = [0x3C, 0x21, 0x2D, 0x2D] := by decide +kernel
theorem pi1 : codes "<?" = [0x3C, 0x3F] := by decide +kernel
theorem doc1 : codes "<!DOCTYPE " = [0x3C, 0x21, 0x44, 0x4F, 0x43, 0x54, 0x59, 0x50, 0x45, 0x20] := by decide +kernel

theorem escape_head (s r : List Nat) (hs : s ≠ []) : ∃ c w, escape false s ++ r = c :: w ∧ c ≠ 0x3C := by
  obtain ⟨c, s, rfl⟩ := List.exists_cons_of_ne_nil hs
  have hn := (escape_no false (c :: s))
  cases he : escape false (c :: s) with
  | nil =>
    have := escape_decodes false (c :: s)
    rw [he] at this
    exact absurd (decodes_det _ _ _ this .nil) (by simp)
  | cons d w =>
    rw [he] at hn
    exact ⟨d, w ++ r, rfl, ((hn d (by simp)).2.2 rfl).1⟩

/-- The first characters tell the kind of node. -/
theorem cls_write (P : Data) (hP : ¬ HtmlElement rawNames P) (n : Dom) (r : List Nat) (h : Readable P n) :
    cls (write P n ++ r) = kind n.data ∧ 2 ≤ kind n.data := by
  obtain ⟨d, ks⟩ := n
  cases d with
  | element ns pre name attrs =>
    unfold Readable at h
    obtain ⟨h1, h2, ⟨⟨c, w, rfl, hc⟩, _⟩, _⟩ := h
    refine ⟨?_, show (2 ≤ 5) by decide⟩
    rw [write, name_html _ _ _ h1, lt1]
    simp only [List.append_assoc, List.cons_append, List.nil_append]
    exact cls_elem c _ hc
  | text s =>
    unfold Readable at h
    refine ⟨?_, show (2 ≤ 6) by decide⟩
    rw [write, if_neg hP]
    obtain ⟨c, w, e, hc⟩ := escape_head s r h.2.1
    rw [e]
    exact cls_text c w hc
  | comment s => refine ⟨?_, show (2 ≤ 2) by decide⟩; rw [write, com1]; rfl
  | pi s t => refine ⟨?_, show (2 ≤ 4) by decide⟩; rw [write, pi1]; rfl
  | doctype s => refine ⟨?_, show (2 ≤ 3) by decide⟩; rw [write, doc1]; rfl
  | other => unfold Readable at h; exact h.elim

theorem attrs_inj : ∀ (l m : List Spec.HtmlSerial.Attr) (u v : List Nat), (∀ a ∈ l, ReadableAttr a) → (∀ a ∈ m, ReadableAttr a) →
    attrsOut l ++ 0x3E :: u = attrsOut m ++ 0x3E :: v → l = m ∧ u = v
  | [], [], u, v, _, _, h => by simpa [attrsOut] using h
  | [], b :: m, u, v, _, _, h => by
    unfold attrsOut at h
    rw [List.flatMap_cons, sp1] at h
    simp at h
  | a :: l, [], u, v, _, _, h => by
    unfold attrsOut at h
    rw [List.flatMap_cons, sp1] at h
    simp at h
  | a :: l, b :: m, u, v, ha, hb, h => by
    have a1 := ha a (by simp)
    have b1 := hb b (by simp)
    have h : codes " " ++ attrName a ++ codes "=\"" ++ escape true a.val ++ codes "\"" ++ attrsOut l ++ 0x3E :: u =
      codes " " ++ attrName b ++ codes "=\"" ++ escape true b.val ++ codes "\"" ++ attrsOut m ++ 0x3E :: v := h
    rw [name_attr a a1, name_attr b b1, sp1, eq1, qt1] at h
    simp only [List.append_assoc, List.cons_append, List.nil_append, List.cons.injEq, true_and] at h
    obtain ⟨e1, h⟩ := split_char _ _ _ _ _ a1.2.2 b1.2.2 h
    simp only [List.cons.injEq, true_and] at h
    obtain ⟨e2, h⟩ := split_char _ _ _ _ _ (fun x => (escape_no true _ _ x).2.1 rfl rfl)
      (fun x => (escape_no true _ _ x).2.1 rfl rfl) h
    obtain ⟨e3, h⟩ := attrs_inj l m u v (fun x hx => ha x (by simp [hx])) (fun x hx => hb x (by simp [hx])) h
    refine ⟨?_, h⟩
    rw [e3]
    obtain ⟨an, ap, am, av⟩ := a
    obtain ⟨bn, bp, bm, bv⟩ := b
    obtain ⟨rfl, rfl, _⟩ := a1
    obtain ⟨rfl, rfl, _⟩ := b1
    rw [show av = bv from escape_inj true _ _ e2, show am = bm from e1]

theorem attrs_head (l : List Spec.HtmlSerial.Attr) (u : List Nat) : ∀ c ∈ (attrsOut l ++ 0x3E :: u).head?, c = 0x20 ∨ c = 0x3E := by
  cases l with
  | nil => simp [attrsOut]
  | cons a l => unfold attrsOut; rw [List.flatMap_cons, sp1]; simp

mutual
def dsize : Dom → Nat
  | .mk _ ks => 1 + dsizes ks
def dsizes : List Dom → Nat
  | [] => 0
  | n :: r => dsize n + dsizes r
end

theorem void_readable (P : Data) (ns pre name : List Nat) (attrs : List Spec.HtmlSerial.Attr) (ks : List Dom)
    (h : Readable P (.mk (.element ns pre name attrs) ks)) (hv : HtmlElement voidNames (.element ns pre name attrs)) : ks = [] := by
  unfold Readable at h
  exact h.2.2.2.2.1 hv.2

/-- After a text comes markup or the end. -/
theorem after_text (P : Data) (hP : ¬ HtmlElement rawNames P) (f : List Dom) (r : List Nat) (hf : Readables P f)
    (ht : ∀ m ∈ f.head?, ¬ m.data.isText) (hr : Tail r) : ∀ c ∈ (writes P f ++ r).head?, c = 0x3C := by
  cases f with
  | nil =>
    rw [writes, List.nil_append]
    rcases hr with rfl | ⟨r', rfl⟩ <;> simp
  | cons n f =>
    have hn := ht n (by simp)
    unfold Readables at hf
    rw [writes]
    obtain ⟨d, ks⟩ := n
    cases d with
    | element ns pre name attrs => rw [write, lt1]; simp
    | text s => exact absurd trivial hn
    | comment s => rw [write, com1]; simp
    | pi s t => rw [write, pi1]; simp
    | doctype s => rw [write, doc1]; simp
    | other => have := hf.1; unfold Readable at this; exact this.elim

theorem raw_inj (P : Data) (hP : HtmlElement rawNames P) (f g : List Dom) (u v : List Nat) (hf : Readables P f) (hg : Readables P g)
    (hu : Tail u) (hv : Tail v) (h : writes P f ++ u = writes P g ++ v) : f = g ∧ u = v := by
  have key : ∀ f, Readables P f → ∃ s, writes P f = s ∧ ¬ Occurs (codes "</") s ∧
      ((s = [] ∧ f = []) ∨ (s ≠ [] ∧ f = [.mk (.text s) []])) := by
    intro f hf
    cases f with
    | nil => exact ⟨[], by rw [writes], by rintro ⟨a, b, e⟩; rw [slash_codes] at e; simp at e, .inl ⟨rfl, rfl⟩⟩
    | cons n f =>
      unfold Readables at hf
      obtain ⟨h1, _, _, h4⟩ := hf
      obtain ⟨h5, rfl⟩ := h4 hP
      obtain ⟨d, ks⟩ := n
      cases d with
      | text s =>
        unfold Readable at h1
        obtain ⟨rfl, h6, h7⟩ := h1
        exact ⟨s, by rw [writes, write, if_pos hP, writes, List.append_nil], h7 hP, .inr ⟨h6, rfl⟩⟩
      | _ => exact h5.elim
  obtain ⟨s, e1, o1, c1⟩ := key f hf
  obtain ⟨t, e2, o2, c2⟩ := key g hg
  rw [e1, e2] at h
  obtain ⟨rfl, e⟩ := raw_split s t u v o1 o2 hu hv h
  refine ⟨?_, e⟩
  rcases c1 with ⟨a, b⟩ | ⟨a, b⟩ <;> rcases c2 with ⟨a', b'⟩ | ⟨a', b'⟩
  · rw [b, b']
  · exact absurd a a'
  · exact absurd a' a
  · rw [b, b']

theorem text_one (P : Data) (s : List Nat) (ks : List Dom) (h : Readable P (.mk (.text s) ks)) : ks = [] := by
  unfold Readable at h; exact h.1

/-- Equal output, equal forests. -/
theorem writes_inj : ∀ (N : Nat) (P : Data) (f g : List Dom) (u v : List Nat), dsizes f ≤ N → Readables P f → Readables P g →
    Tail u → Tail v → writes P f ++ u = writes P g ++ v → f = g ∧ u = v := by
  intro N
  induction N with
  | zero =>
    intro P f g u v hN hf hg hu hv h
    by_cases hP : HtmlElement rawNames P
    · exact raw_inj P hP f g u v hf hg hu hv h
    cases f with
    | cons n f => obtain ⟨d, ks⟩ := n; rw [dsizes, dsize] at hN; omega
    | nil =>
      cases g with
      | nil => simpa [writes] using h
      | cons m g =>
        unfold Readables at hg
        have := cls_write P hP m (writes P g ++ v) hg.1
        rw [writes, writes, List.nil_append, List.append_assoc] at h
        rw [← h, cls_tail u hu] at this
        omega
  | succ N ih =>
    intro P f g u v hN hf hg hu hv h
    by_cases hP : HtmlElement rawNames P
    · exact raw_inj P hP f g u v hf hg hu hv h
    cases f with
    | nil =>
      cases g with
      | nil => simpa [writes] using h
      | cons m g =>
        unfold Readables at hg
        have := cls_write P hP m (writes P g ++ v) hg.1
        rw [writes, writes, List.nil_append, List.append_assoc] at h
        rw [← h, cls_tail u hu] at this
        omega
    | cons n f =>
      cases g with
      | nil =>
        unfold Readables at hf
        have := cls_write P hP n (writes P f ++ u) hf.1
        rw [writes, writes, List.nil_append, List.append_assoc] at h
        rw [h, cls_tail v hv] at this
        omega
      | cons m g =>
        unfold Readables at hf hg
        obtain ⟨f1, f2, f3, _⟩ := hf
        obtain ⟨g1, g2, g3, _⟩ := hg
        have k1 := cls_write P hP n (writes P f ++ u) f1
        have k2 := cls_write P hP m (writes P g ++ v) g1
        rw [writes, writes, List.append_assoc, List.append_assoc] at h
        have hk : kind n.data = kind m.data := by rw [← k1.1, ← k2.1, h]
        clear k1 k2
        obtain ⟨d, ks⟩ := n
        obtain ⟨d', ks'⟩ := m
        rw [dsizes, dsize] at hN
        have go : d = d' → ks = ks' → writes P f ++ u = writes P g ++ v →
            Dom.mk d ks :: f = Dom.mk d' ks' :: g ∧ u = v := by
          rintro rfl rfl h
          obtain ⟨a, b⟩ := ih P f g u v (by omega) f2 g2 hu hv h
          exact ⟨by rw [a], b⟩
        cases d with
        | element ns pre name attrs =>
          cases d' with
          | element ns' pre' name' attrs' =>
            have v1 := void_readable P _ _ _ _ _ f1
            have v2 := void_readable P _ _ _ _ _ g1
            unfold Readable at f1 g1
            obtain ⟨rfl, rfl, n1, a1, _, r1⟩ := f1
            obtain ⟨rfl, rfl, n2, a2, _, r2⟩ := g1
            rw [write, write, name_html _ _ _ rfl, name_html _ _ _ rfl, lt1, gt1, slash_codes] at h
            simp only [List.append_assoc, List.cons_append, List.nil_append, List.cons.injEq, true_and] at h
            obtain ⟨e1, h⟩ := split_at (fun c => c = 0x20 ∨ c = 0x3E) _ _ _ _
              (fun c hc e => e.elim (fun e => n1.2.1 (e ▸ hc)) (fun e => n1.2.2 (e ▸ hc)))
              (fun c hc e => e.elim (fun e => n2.2.1 (e ▸ hc)) (fun e => n2.2.2 (e ▸ hc)))
              (attrs_head _ _) (attrs_head _ _) h
            subst e1
            obtain ⟨e2, h⟩ := attrs_inj _ _ _ _ a1 a2 h
            subst e2
            by_cases c : HtmlElement voidNames (.element htmlNs [] name attrs)
            · rw [if_pos c, if_pos c] at h
              exact go rfl (by rw [v1 c, v2 c]) h
            · rw [if_neg c, if_neg c] at h
              simp only [List.append_assoc, List.cons_append, List.nil_append] at h
              obtain ⟨e3, h⟩ := ih _ ks ks' _ _ (by omega) r1 r2 (.inr ⟨_, rfl⟩) (.inr ⟨_, rfl⟩) h
              simp only [List.cons.injEq, true_and] at h
              have h := List.append_cancel_left h
              simp only [List.cons.injEq, true_and] at h
              exact go rfl e3 h
          | _ => simp [Dom.data, kind] at hk
        | text s =>
          cases d' with
          | text t =>
            rw [write, write, if_neg hP, if_neg hP] at h
            obtain ⟨e1, h⟩ := split_at (· = 0x3C) _ _ _ _ (fun c hc => ((escape_no false _ c hc).2.2 rfl).1)
              (fun c hc => ((escape_no false _ c hc).2.2 rfl).1)
              (after_text P hP f u f2 (f3 trivial) hu) (after_text P hP g v g2 (g3 trivial) hv) h
            exact go (by rw [escape_inj false _ _ e1]) (by rw [text_one _ _ _ f1, text_one _ _ _ g1]) h
          | _ => simp [Dom.data, kind] at hk
        | comment s =>
          cases d' with
          | comment t =>
            unfold Readable at f1 g1
            rw [write, write, List.append_assoc, List.append_assoc, List.append_assoc, List.append_assoc] at h
            obtain ⟨e1, h⟩ := comment_split _ _ _ _ f1.2 g1.2 (List.append_cancel_left h)
            exact go (by rw [e1]) (by rw [f1.1, g1.1]) h
          | _ => simp [Dom.data, kind] at hk
        | pi s t =>
          cases d' with
          | pi s' t' =>
            unfold Readable at f1 g1
            rw [write, write, sp1, gt1] at h
            simp only [List.append_assoc, List.cons_append, List.nil_append] at h
            obtain ⟨e1, h⟩ := split_char _ _ _ _ _ f1.2.1 g1.2.1 (List.append_cancel_left h)
            obtain ⟨e2, h⟩ := split_char _ _ _ _ _ f1.2.2 g1.2.2 h
            exact go (by rw [e1, e2]) (by rw [f1.1, g1.1]) h
          | _ => simp [Dom.data, kind] at hk
        | doctype s =>
          cases d' with
          | doctype t =>
            unfold Readable at f1 g1
            rw [write, write, gt1] at h
            simp only [List.append_assoc, List.cons_append, List.nil_append] at h
            obtain ⟨e1, h⟩ := split_char _ _ _ _ _ f1.2 g1.2 (List.append_cancel_left h)
            exact go (by rw [e1]) (by rw [f1.1, g1.1]) h
          | _ => simp [Dom.data, kind] at hk
        | other => unfold Readable at f1; exact f1.elim

end Verif.Proof.HtmlSerial
