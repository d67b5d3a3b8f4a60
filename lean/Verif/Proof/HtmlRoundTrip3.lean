import Verif.Proof.HtmlRoundTrip2
/-
Paths of the standard's tokenizer over comments and trees.
-/
namespace Verif.Proof.HtmlRoundTrip
open Verif.Model.HtmlTok Verif.Spec.HtmlTokBridge Verif.Proof.HtmlTok Verif.Spec.HtmlRoundTrip
open Verif.Spec.HtmlTok (steps step start Refs C Env)
open Verif.Spec.HtmlAtom (codes)
open Verif.Spec.HtmlSerial (escape Dom Data HtmlElement voidNames rawNames write writes)
variable {σ : Type} {S : Sink σ} {refs : Refs}

/-! ### Comments -/

/-- A rest of a plain comment. -/
structure Tail (w : List Nat) : Prop where
  nul : 0 ∉ w
  dash : ∀ a b, w ≠ a ++ 0x2D :: 0x2D :: b
  last : w.getLast? ≠ some 0x2D

theorem Tail.next {c : Nat} {w : List Nat} (h : Tail (c :: w)) : Tail w := by
  refine ⟨fun hw => h.nul (by simp [hw]), fun a b hw => h.dash (c :: a) b (by rw [hw]; rfl), fun hw => h.last ?_⟩
  cases w with
  | nil => simp at hw
  | cons d w => rw [List.getLast?_cons_cons]; exact hw

theorem Tail.after {w : List Nat} (h : Tail (0x2D :: w)) : ∃ d r, w = d :: r ∧ d ≠ 0x2D := by
  cases w with
  | nil => exact absurd rfl h.last
  | cons d r => exact ⟨d, r, rfl, fun hd => h.dash [] r (by rw [hd]; rfl)⟩

theorem fine_comment {x : C σ} (h1 : x.st = .comment) (c : Nat) (l : List Nat) (h2 : x.rest = c :: l) (h3 : c ≠ 0) : Fine S x := by
  refine ⟨⟨?_, by simp [h1]⟩, by simp [h1]⟩
  rintro (⟨_, h⟩ | ⟨h, _⟩ | ⟨h, _⟩ | ⟨h, _⟩)
  · rw [h2] at h; exact h3 (Option.some.inj h)
  · simp [h1] at h
  · simp [h1] at h
  · simp [h1] at h

/-- Within a comment. -/
structure InCom (st : Spec.HtmlTok.St) (rest com : List Nat) (s : σ) (x : C σ) : Prop where
  st : x.st = st
  rest : x.rest = rest
  com : x.com = com
  sink : x.sink = s
  ended : x.ended = false

theorem end_gt (l com : List Nat) (z : σ) (x : C σ) (h : InCom .commentEnd (0x3E :: l) com z x) :
    ∃ y, Path S refs x y ∧ AtData l (S.emit z (.comment com)) y := by
  obtain ⟨hst, hr, hc, hs, he⟩ := h
  exact ⟨_, Path.one (row_end_gt (envOf S) refs x he _ hst hr) (by fine), rfl, rfl, by simp [envOf, erase, hs, hc], he⟩

theorem comment_paths (l : List Nat) (z : σ) (n : Nat) : ∀ w, w.length ≤ n → Tail w →
    (∀ com (x : C σ), InCom .comment (w ++ 0x2D :: 0x2D :: 0x3E :: l) com z x →
      ∃ y, Path S refs x y ∧ AtData l (S.emit z (.comment (com ++ w))) y) ∧
    (∀ com (x : C σ), InCom .commentLt (w ++ 0x2D :: 0x2D :: 0x3E :: l) com z x →
      ∃ y, Path S refs x y ∧ AtData l (S.emit z (.comment (com ++ w))) y) ∧
    (∀ com (x : C σ), InCom .commentLtBang (w ++ 0x2D :: 0x2D :: 0x3E :: l) com z x →
      ∃ y, Path S refs x y ∧ AtData l (S.emit z (.comment (com ++ w))) y) := by
  induction n with
  | zero =>
    intro w hw _
    obtain rfl : w = [] := List.eq_nil_of_length_eq_zero (by omega)
    have base : ∀ com (x : C σ), InCom .comment (0x2D :: 0x2D :: 0x3E :: l) com z x →
        ∃ y, Path S refs x y ∧ AtData l (S.emit z (.comment (com ++ []))) y := by
      intro com x h
      obtain ⟨hst, hr, hc, hs, he⟩ := h
      have p1 := Path.one (S := S) (refs := refs) (row_com_dash (envOf S) refs x he _ hst hr) (fine_comment hst _ _ hr (by decide))
      have p2 := Path.one (S := S) (refs := refs) (row_ed_dash (envOf S) refs { x with st := .commentEndDash, rest := 0x2D :: 0x3E :: l } he _ rfl rfl) (by fine)
      obtain ⟨y, p3, hy⟩ := end_gt (S := S) (refs := refs) l com z { x with st := .commentEnd, rest := 0x3E :: l } ⟨rfl, rfl, hc, hs, he⟩
      exact ⟨y, p1.trans (p2.trans p3), by simpa using hy⟩
    refine ⟨base, ?_, ?_⟩
    · intro com x h
      obtain ⟨hst, hr, hc, hs, he⟩ := h
      have p1 := Path.one (S := S) (refs := refs) (row_lt_any (envOf S) refs x he _ _ hst hr (by decide) (by decide)) (by fine)
      obtain ⟨y, p2, hy⟩ := base com { x with st := .comment } ⟨rfl, hr, hc, hs, he⟩
      exact ⟨y, p1.trans p2, hy⟩
    · intro com x h
      obtain ⟨hst, hr, hc, hs, he⟩ := h
      have p1 := Path.one (S := S) (refs := refs) (row_bang_dash (envOf S) refs x he _ hst hr) (by fine)
      have p2 := Path.one (S := S) (refs := refs) (row_bd_dash (envOf S) refs { x with st := .commentLtBangDash, rest := 0x2D :: 0x3E :: l } he _ rfl rfl) (by fine)
      have p3 := Path.one (S := S) (refs := refs) (row_bdd (envOf S) refs { x with st := .commentLtBangDashDash, rest := 0x3E :: l } he rfl _ _ rfl) (by fine)
      obtain ⟨y, p4, hy⟩ := end_gt (S := S) (refs := refs) l com z { x with st := .commentEnd, rest := 0x3E :: l } ⟨rfl, rfl, hc, hs, he⟩
      exact ⟨y, p1.trans (p2.trans (p3.trans p4)), by simpa using hy⟩
  | succ n ih =>
    intro w hw ht
    cases w with
    | nil => exact ih [] (by simp) ht
    | cons c w =>
      have ih' := ih w (by simpa using hw) ht.next
      have dash : c = 0x2D → ∀ com (x : C σ), InCom .commentEndDash (w ++ 0x2D :: 0x2D :: 0x3E :: l) com z x →
          ∃ y, Path S refs x y ∧ AtData l (S.emit z (.comment (com ++ c :: w))) y := by
        rintro rfl com x ⟨hst, hr, hc, hs, he⟩
        obtain ⟨d, r, hd, hd'⟩ := ht.after
        have p1 := Path.one (S := S) (refs := refs) (row_ed_any (envOf S) refs x he d _ hst (by rw [hr, hd]; rfl) hd') (by fine)
        obtain ⟨y, p2, hy⟩ := ih'.1 (com ++ [0x2D]) { x with st := .comment, com := x.com ++ [0x2D] } ⟨rfl, hr, by simp [hc], hs, he⟩
        exact ⟨y, p1.trans p2, by simpa using hy⟩
      have inner : ∀ com (x : C σ), InCom .comment (c :: w ++ 0x2D :: 0x2D :: 0x3E :: l) com z x →
          ∃ y, Path S refs x y ∧ AtData l (S.emit z (.comment (com ++ c :: w))) y := by
        intro com x h
        obtain ⟨hst, hr, hc, hs, he⟩ := h
        have h0 : c ≠ 0 := fun h => ht.nul (by simp [h])
        have hf : Fine S x := fine_comment hst _ _ hr h0
        by_cases h1 : c = 0x3C
        · subst h1
          have p1 := Path.one (S := S) (refs := refs) (row_com_lt (envOf S) refs x he _ hst hr) hf
          obtain ⟨y, p2, hy⟩ := ih'.2.1 (com ++ [0x3C]) { x with st := .commentLt, com := x.com ++ [0x3C], rest := w ++ 0x2D :: 0x2D :: 0x3E :: l } ⟨rfl, rfl, by simp [hc], hs, he⟩
          exact ⟨y, p1.trans p2, by simpa using hy⟩
        by_cases h2 : c = 0x2D
        · subst h2
          have p1 := Path.one (S := S) (refs := refs) (row_com_dash (envOf S) refs x he _ hst hr) hf
          obtain ⟨y, p2, hy⟩ := dash rfl com { x with st := .commentEndDash, rest := w ++ 0x2D :: 0x2D :: 0x3E :: l } ⟨rfl, rfl, hc, hs, he⟩
          exact ⟨y, p1.trans p2, hy⟩
        have p1 := Path.one (S := S) (refs := refs) (row_com_any (envOf S) refs x he c _ hst hr h1 h2 h0) hf
        obtain ⟨y, p2, hy⟩ := ih'.1 (com ++ [c]) { x with com := x.com ++ [c], rest := w ++ 0x2D :: 0x2D :: 0x3E :: l } ⟨hst, rfl, by simp [hc], hs, he⟩
        exact ⟨y, p1.trans p2, by simpa using hy⟩
      refine ⟨inner, ?_, ?_⟩
      · intro com x h
        obtain ⟨hst, hr, hc, hs, he⟩ := h
        by_cases h1 : c = 0x21
        · subst h1
          have p1 := Path.one (S := S) (refs := refs) (row_lt_bang (envOf S) refs x he _ hst hr) (by fine)
          obtain ⟨y, p2, hy⟩ := ih'.2.2 (com ++ [0x21]) { x with st := .commentLtBang, com := x.com ++ [0x21], rest := w ++ 0x2D :: 0x2D :: 0x3E :: l } ⟨rfl, rfl, by simp [hc], hs, he⟩
          exact ⟨y, p1.trans p2, by simpa using hy⟩
        by_cases h2 : c = 0x3C
        · subst h2
          have p1 := Path.one (S := S) (refs := refs) (row_lt_lt (envOf S) refs x he _ hst hr) (by fine)
          obtain ⟨y, p2, hy⟩ := ih'.2.1 (com ++ [0x3C]) { x with com := x.com ++ [0x3C], rest := w ++ 0x2D :: 0x2D :: 0x3E :: l } ⟨hst, rfl, by simp [hc], hs, he⟩
          exact ⟨y, p1.trans p2, by simpa using hy⟩
        have p1 := Path.one (S := S) (refs := refs) (row_lt_any (envOf S) refs x he c _ hst hr h1 h2) (by fine)
        obtain ⟨y, p2, hy⟩ := inner com { x with st := .comment } ⟨rfl, hr, hc, hs, he⟩
        exact ⟨y, p1.trans p2, hy⟩
      · intro com x h
        obtain ⟨hst, hr, hc, hs, he⟩ := h
        by_cases h1 : c = 0x2D
        · subst h1
          obtain ⟨d, r, hd, hd'⟩ := ht.after
          have p1 := Path.one (S := S) (refs := refs) (row_bang_dash (envOf S) refs x he _ hst hr) (by fine)
          have p2 := Path.one (S := S) (refs := refs) (row_bd_any (envOf S) refs { x with st := .commentLtBangDash, rest := w ++ 0x2D :: 0x2D :: 0x3E :: l } he d (r ++ 0x2D :: 0x2D :: 0x3E :: l) rfl (by rw [hd]; rfl) hd') (by fine)
          obtain ⟨y, p3, hy⟩ := dash rfl com { x with st := .commentEndDash, rest := w ++ 0x2D :: 0x2D :: 0x3E :: l } ⟨rfl, rfl, hc, hs, he⟩
          exact ⟨y, p1.trans (p2.trans p3), hy⟩
        have p1 := Path.one (S := S) (refs := refs) (row_bang_any (envOf S) refs x he c _ hst hr h1) (by fine)
        obtain ⟨y, p2, hy⟩ := inner com { x with st := .comment } ⟨rfl, hr, hc, hs, he⟩
        exact ⟨y, p1.trans p2, hy⟩

theorem comment_path (w : List Nat) (hw : PlainComment w) (l : List Nat) (z : σ) (x : C σ) (h : AtData (codes "<!--" ++ w ++ codes "-->" ++ l) z x) :
    ∃ y, Path S refs x y ∧ AtData l (S.emit z (.comment w)) y := by
  obtain ⟨h0, _, hd, hl, hg, hdg⟩ := hw
  have ht : Tail w := ⟨h0, hd, hl⟩
  obtain ⟨hst, hr, hs, he⟩ := h
  have hr' : x.rest = 0x3C :: 0x21 :: 0x2D :: 0x2D :: (w ++ 0x2D :: 0x2D :: 0x3E :: l) := by rw [hr]; simp [codes]
  have p1 := Path.one (S := S) (refs := refs) (row_data_lt (envOf S) refs x he _ hst hr') (by fine)
  have p2 := Path.one (S := S) (refs := refs) (row_open_bang (envOf S) refs
    { x with st := .tagOpen, rest := 0x21 :: 0x2D :: 0x2D :: (w ++ 0x2D :: 0x2D :: 0x3E :: l) } he _ rfl rfl) (by fine)
  have p3 : Path S refs { x with st := .markupDecl, rest := 0x2D :: 0x2D :: (w ++ 0x2D :: 0x2D :: 0x3E :: l) }
      { x with st := .commentStart, com := [], rest := w ++ 0x2D :: 0x2D :: 0x3E :: l } := by
    refine Path.one ?_ ⟨⟨?_, by simp⟩, by simp⟩
    · unfold Spec.HtmlTok.step
      simp [he, Spec.HtmlTok.markup]
    · rintro (⟨h, _⟩ | ⟨h, _⟩ | ⟨_, h, _⟩ | ⟨h, _⟩)
      · exact absurd h (by simp)
      · exact absurd h (by simp)
      · simp at h
      · exact absurd h (by simp)
  suffices H : ∃ y, Path S refs { x with st := .commentStart, com := [], rest := w ++ 0x2D :: 0x2D :: 0x3E :: l } y ∧
      AtData l (S.emit z (.comment w)) y by
    obtain ⟨y, p4, hy⟩ := H
    exact ⟨y, p1.trans (p2.trans (p3.trans p4)), hy⟩
  cases w with
  | nil =>
    have p4 := Path.one (S := S) (refs := refs) (row_cs_dash (envOf S) refs { x with st := .commentStart, com := [], rest := 0x2D :: 0x2D :: 0x3E :: l } he _ rfl rfl) (by fine)
    have p5 := Path.one (S := S) (refs := refs) (row_csd_dash (envOf S) refs { x with st := .commentStartDash, com := [], rest := 0x2D :: 0x3E :: l } he _ rfl rfl) (by fine)
    obtain ⟨y, p6, hy⟩ := end_gt (S := S) (refs := refs) l [] z { x with st := .commentEnd, com := [], rest := 0x3E :: l } ⟨rfl, rfl, rfl, hs, he⟩
    exact ⟨y, p4.trans (p5.trans p6), hy⟩
  | cons c w =>
    by_cases h1 : c = 0x2D
    · subst h1
      obtain ⟨d, r, hd1, hd2⟩ := ht.after
      have hd3 : d ≠ 0x3E := fun h => hdg r (by rw [hd1, h])
      have p4 := Path.one (S := S) (refs := refs) (row_cs_dash (envOf S) refs { x with st := .commentStart, com := [], rest := 0x2D :: w ++ 0x2D :: 0x2D :: 0x3E :: l } he _ rfl rfl) (by fine)
      have p5 := Path.one (S := S) (refs := refs) (row_csd_any (envOf S) refs { x with st := .commentStartDash, com := [], rest := w ++ 0x2D :: 0x2D :: 0x3E :: l } he d (r ++ 0x2D :: 0x2D :: 0x3E :: l) rfl (by rw [hd1]; rfl) hd2 hd3) (by fine)
      obtain ⟨y, p6, hy⟩ := (comment_paths (S := S) (refs := refs) l z _ w (le_refl _) ht.next).1 [0x2D] { x with st := .comment, com := [] ++ [0x2D], rest := w ++ 0x2D :: 0x2D :: 0x3E :: l } ⟨rfl, rfl, rfl, hs, he⟩
      exact ⟨y, p4.trans (p5.trans p6), hy⟩
    · have h2 : c ≠ 0x3E := fun h => hg (by simp [h])
      have p4 := Path.one (S := S) (refs := refs) (row_cs_any (envOf S) refs { x with st := .commentStart, com := [], rest := c :: w ++ 0x2D :: 0x2D :: 0x3E :: l } he c _ rfl rfl h1 h2) (by fine)
      obtain ⟨y, p5, hy⟩ := (comment_paths (S := S) (refs := refs) l z _ (c :: w) (le_refl _) ht).1 [] { x with st := .comment, com := [], rest := c :: w ++ 0x2D :: 0x2D :: 0x3E :: l } ⟨rfl, rfl, rfl, hs, he⟩
      exact ⟨y, p4.trans p5, hy⟩

/-! ### Trees -/

mutual
theorem node_path (hK : Knows refs) (par : Data) (hpar : ¬ HtmlElement rawNames par) (l : List Nat) :
    ∀ (D : Dom) (_ : Plain D) (z : σ) (_ : Calm S z (tokens D)) (x : C σ), AtData (write par D ++ l) z x →
      ∃ y, Path S refs x y ∧ AtData l ((tokens D).foldl S.emit z) y
  | .mk (.element ns pre name attrs) ks, hD, z, hS, x, hx => by
    unfold Plain at hD
    obtain ⟨rfl, hn, hraw, ha, hd, hv, hks⟩ := hD
    unfold write at hx
    have htag : Spec.HtmlSerial.tagName Spec.HtmlSerial.htmlNs pre name = name := by simp [Spec.HtmlSerial.tagName]
    rw [htag] at hx
    rw [List.append_assoc] at hx
    unfold tokens at hS
    obtain ⟨y, p1, hy⟩ := start_path (S := S) hK name attrs hn ha hd _ z hS.1 x hx
    unfold tokens
    by_cases hvoid : name ∈ voidNames
    · have : HtmlElement voidNames (.element Spec.HtmlSerial.htmlNs pre name attrs) := ⟨rfl, hvoid⟩
      rw [if_pos this] at hy
      rw [if_pos hvoid]
      exact ⟨y, p1, hy⟩
    · have : ¬ HtmlElement voidNames (.element Spec.HtmlSerial.htmlNs pre name attrs) := fun h => hvoid h.2
      rw [if_neg this, show ∀ a b c d e : List Nat, a ++ b ++ c ++ d ++ e = a ++ (b ++ c ++ d ++ e) from by simp] at hy
      rw [if_neg hvoid] at hS
      rw [if_neg hvoid, List.foldl_cons, List.foldl_append]
      obtain ⟨y2, p2, hy2⟩ := nodes_path hK (.element Spec.HtmlSerial.htmlNs pre name attrs) (fun h => hraw h.2) _ ks hks _
        (calm_append.mp hS.2).1 y hy
      obtain ⟨y3, p3, hy3⟩ := end_path (S := S) (refs := refs) name hn l _ y2 hy2
      exact ⟨y3, p1.trans (p2.trans p3), hy3⟩
  | .mk (.text s) _, hD, z, hS, x, hx => by
    unfold write at hx
    rw [if_neg hpar] at hx
    unfold tokens
    exact text_path hK s l z x hx
  | .mk (.comment s) _, hD, z, hS, x, hx => by
    unfold Plain at hD
    unfold write at hx
    unfold tokens
    exact comment_path s hD l z x hx
  | .mk (.doctype name) _, hD, z, hS, x, hx => by
    unfold Plain at hD
    unfold write at hx
    unfold tokens
    exact doctype_path name hD.1 hD.2 l z x hx
  | .mk (.pi _ _) _, hD, z, hS, x, hx => by unfold Plain at hD; exact hD.elim
  | .mk .other _, hD, z, hS, x, hx => by unfold Plain at hD; exact hD.elim

theorem nodes_path (hK : Knows refs) (par : Data) (hpar : ¬ HtmlElement rawNames par) (l : List Nat) :
    ∀ (ks : List Dom) (_ : PlainAll ks) (z : σ) (_ : Calm S z (tokensAll ks)) (x : C σ), AtData (writes par ks ++ l) z x →
      ∃ y, Path S refs x y ∧ AtData l ((tokensAll ks).foldl S.emit z) y
  | [], _, z, _, x, hx => by
    unfold writes at hx
    unfold tokensAll
    exact ⟨x, .refl _ _ _, hx⟩
  | n :: r, hD, z, hS, x, hx => by
    unfold PlainAll at hD
    unfold writes at hx
    rw [List.append_assoc] at hx
    unfold tokensAll at hS ⊢
    obtain ⟨y, p1, hy⟩ := node_path hK par hpar _ n hD.1 z (calm_append.mp hS).1 x hx
    obtain ⟨y2, p2, hy2⟩ := nodes_path hK par hpar l r hD.2 _ (calm_append.mp hS).2 y hy
    exact ⟨y2, p1.trans p2, by rw [List.foldl_append]; exact hy2⟩
end

/-! ### To the end of the file -/

theorem to_eof (z : σ) (x y : C σ) (p : Path S refs x y) (h : AtData [] z y) :
    (∀ k, Fine S (steps (envOf S) refs k x)) ∧
    ∀ k, (steps (envOf S) refs k x).ended = true → (steps (envOf S) refs k x).sink = S.emit z .eof := by
  obtain ⟨hst, hr, hs, he⟩ := h
  have p1 := Path.one (S := S) (refs := refs) (row_data_eof (envOf S) refs y he hst hr) (by fine)
  obtain ⟨k0, hk0, hf⟩ := p.trans p1
  have hend : (steps (envOf S) refs k0 x).ended = true := by rw [hk0]
  have hfix : ∀ d, steps (envOf S) refs (k0 + d) x = steps (envOf S) refs k0 x := fun d => by
    rw [steps_add, steps_ended _ _ _ _ hend]
  constructor
  · intro k
    by_cases hk : k < k0
    · exact hf k hk
    · obtain ⟨d, rfl⟩ : ∃ d, k = k0 + d := ⟨k - k0, by omega⟩
      rw [hfix, hk0]
      fine
  · intro k hk
    have : steps (envOf S) refs k x = steps (envOf S) refs k0 x := ended_unique _ _ _ _ _ hk hend
    rw [this, hk0]
    simp [envOf, erase, hs]

end Verif.Proof.HtmlRoundTrip
