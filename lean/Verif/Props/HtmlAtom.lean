import Verif.Proof.HtmlAtom
/- Properties C90 - C92: HTML atoms. -/
namespace Verif.Props.HtmlAtom
open Verif.Model.Unicode Verif.Model.HtmlAtom Verif.Model.Tables.HtmlAtom Verif.Spec Verif.Spec.HtmlAtom Verif.Props.Unicode
open Verif.Proof.HtmlAtom

theorem form_inj (ct : CharT) (s t : List Nat) (hs : ∀ c ∈ s, IsScalar c) (ht : ∀ c ∈ t, IsScalar c) (h : formOf ct s = formOf ct t) :
    s = t := by
  have a := C26_encoding_cast ct .c32 s hs
  have b := C26_encoding_cast ct .c32 t ht
  rw [h, b] at a
  injection a with a
  exact a.symm

theorem form_nil (ct : CharT) (s : List Nat) (hs : ∀ c ∈ s, IsScalar c) : formOf ct s = [] ↔ s = [] := by
  constructor
  · intro h
    exact form_inj ct s [] hs (by simp) (by rw [h]; cases ct <;> rfl)
  · rintro rfl; cases ct <;> rfl

theorem ofString_form (ct : CharT) (k : Kind) (s : List Nat) (hs : ∀ c ∈ s, IsScalar c) :
    ofString ct k (formOf ct s) = some ⟨formOf ct s, (find s (map k)).getD 0⟩ := by
  unfold ofString
  rw [C26_encoding_cast ct .c32 s hs]
  show (match find s (map k) with | some i => some (⟨formOf ct s, i⟩ : Atom) | none => some ⟨formOf ct s, 0⟩) = _
  cases find s (map k) <;> rfl

theorem toStr_name (ct : CharT) (k : Kind) (i : Nat) (s : List Nat) (h : (names k)[i]? = some s) :
    toStr ct k (ofName i) = some (formOf ct s) := by
  unfold toStr ofName
  dsimp only
  rw [if_neg (by simp), h]
  exact C26_encoding_cast .c32 ct s (ascii k i s h)

/-- C90. Any string made an atom and an atom made a string again is the same string. -/
theorem C90_string (ct : CharT) (k : Kind) (s : List Nat) (hs : ∀ c ∈ s, IsScalar c) :
    ∃ a, ofString ct k (formOf ct s) = some a ∧ toStr ct k a = some (formOf ct s) := by
  refine ⟨_, ofString_form ct k s hs, ?_⟩
  unfold toStr
  dsimp only
  split
  · rfl
  · rename_i h
    have h1 : s = [] := (form_nil ct s hs).mp (by simpa using h)
    subst h1
    have h2 : find [] (map k) = none := by
      cases hf : find [] (map k) with
      | none => rfl
      | some i =>
        have := (find_iff k [] i).mp hf
        exact absurd this.2 (nonempty k i this.1)
    rw [h2, Option.getD_none, zero]
    exact C26_encoding_cast .c32 ct [] (by simp)

example : (∀ c ∈ codes "blockquote", IsScalar c) ∧ find (codes "blockquote") (map .tag) = some 49 := by decide +kernel

/-- C91. Every enumerator becomes the string it is named after, and that string becomes the enumerator again. -/
theorem C91_name (ct : CharT) (k : Kind) (id : List Nat) (i : Nat) (h : (id, i) ∈ enumerators k) :
    ∃ s, NamedAfter k id s ∧ toStr ct k (ofName i) = some (formOf ct s) ∧
      ∃ a, ofString ct k (formOf ct s) = some a ∧ toName a = i := by
  obtain ⟨h1, s, h2, h3⟩ := named k (id, i) h
  refine ⟨s, h3, toStr_name ct k i s h2, _, ofString_form ct k s (ascii k i s h2), ?_⟩
  rw [(find_iff k s i).mpr ⟨h1, h2⟩]
  rfl

example : (codes "Annotation_xml", 20) ∈ enumerators .tag ∧ NamedAfter .tag (codes "Annotation_xml") (codes "annotation-xml") := by
  refine ⟨by decide +kernel, ?_⟩
  show _ = identifier _
  decide +kernel

/-- C91. No string becomes an enumerator but the one that the enumerator becomes. -/
theorem C91_only (ct : CharT) (k : Kind) (s : List Nat) (hs : ∀ c ∈ s, IsScalar c) (a : Atom)
    (h : ofString ct k (formOf ct s) = some a) (ha : toName a ≠ 0) : toStr ct k (ofName (toName a)) = some (formOf ct s) := by
  rw [ofString_form ct k s hs] at h
  injection h with h
  subst h
  unfold toName at *
  dsimp only at *
  cases hf : find s (map k) with
  | none => rw [hf] at ha; exact absurd rfl ha
  | some i => exact toStr_name ct k i s ((find_iff k s i).mp hf).2

example : ∃ a, ofString .c8 .tag (formOf .c8 (codes "h1")) = some a ∧ toName a ≠ 0 :=
  ⟨_, ofString_form .c8 .tag _ (by decide +kernel), by decide +kernel⟩

/-- What is known of an atom: its string and the name that goes with the string. -/
theorem made (ct : CharT) (k : Kind) (a : Atom) (h : Made ct k a) :
    ∃ s, (∀ c ∈ s, IsScalar c) ∧ toStr ct k a = some (formOf ct s) ∧ a.id = (find s (map k)).getD 0 := by
  have hn : find [] (map k) = none := by
    cases hf : find [] (map k) with
    | none => rfl
    | some i =>
      have := (find_iff k [] i).mp hf
      exact absurd this.2 (nonempty k i this.1)
  cases h with
  | empty => exact ⟨[], by simp, toStr_name ct k 0 [] (zero k), by rw [hn]; rfl⟩
  | str s _ hs h =>
    obtain ⟨b, hb, hb'⟩ := C90_string ct k s hs
    rw [h] at hb
    injection hb with hb
    subst hb
    refine ⟨s, hs, hb', ?_⟩
    rw [ofString_form ct k s hs] at h
    injection h with h
    rw [← h]
  | name i hv =>
    rcases hv with rfl | ⟨id, hv⟩
    · exact ⟨[], by simp, toStr_name ct k 0 [] (zero k), by rw [hn]; rfl⟩
    · obtain ⟨h1, s, h2, _⟩ := named k (id, i) hv
      exact ⟨s, ascii k i s h2, toStr_name ct k i s h2, by rw [(find_iff k s i).mpr ⟨h1, h2⟩]; rfl⟩

/-- C92. Two atoms, however they were made, are equal exactly when their strings are. -/
theorem C92_eq (ct : CharT) (k : Kind) (a b : Atom) (ha : Made ct k a) (hb : Made ct k b) :
    ∃ s t, toStr ct k a = some s ∧ toStr ct k b = some t ∧ eq ct k a b = some (decide (s = t)) ∧
      ne ct k a b = some (decide (s ≠ t)) := by
  obtain ⟨s, s1, s2, s3⟩ := made ct k a ha
  obtain ⟨t, t1, t2, t3⟩ := made ct k b hb
  have key : eq ct k a b = some (decide (formOf ct s = formOf ct t)) := by
    unfold eq
    split
    · rename_i h
      congr 1
      rw [Bool.beq_eq_decide_eq]
      rw [decide_eq_decide]
      cases hf : find s (map k) with
      | none => rw [hf] at s3; exact absurd s3 h.1
      | some i =>
        cases hg : find t (map k) with
        | none => rw [hg] at t3; exact absurd t3 h.2
        | some j =>
          rw [hf] at s3; rw [hg] at t3
          have hi := ((find_iff k s i).mp hf).2
          have hj := ((find_iff k t j).mp hg).2
          rw [s3, t3]
          show i = j ↔ _
          constructor
          · rintro rfl
            rw [hi] at hj; injection hj with hj; rw [hj]
          · intro h'
            have := form_inj ct s t s1 t1 h'
            subst this
            rw [hf] at hg; injection hg
    · rw [s2, t2]
      show some (formOf ct s == formOf ct t) = _
      congr 1
      rw [Bool.eq_iff_iff]; simp
  refine ⟨_, _, s2, t2, key, ?_⟩
  unfold ne
  rw [key]
  simp

example : Made .c8 .tag (ofName 51) ∧ toStr .c8 .tag (ofName 51) = some (codes "br") := by
  refine ⟨Made.name 51 (Or.inr ⟨codes "Br", by decide +kernel⟩), ?_⟩
  exact toStr_name .c8 .tag 51 (codes "br") (by decide +kernel)

/-- C92. Comparing with a name or a string is comparing with the atom made of it. -/
theorem C92_mixed (ct : CharT) (k : Kind) (a : Atom) (ha : Made ct k a) (i : Nat) (hi : Valid k i) (u : List Nat)
    (hu : ∀ c ∈ u, IsScalar c) :
    (∃ s t, toStr ct k a = some s ∧ toStr ct k (ofName i) = some t ∧ eqName ct k a i = some (decide (s = t)) ∧
      nameEq ct k i a = some (decide (s = t))) ∧
    (∃ s, toStr ct k a = some s ∧ eqStr ct k a (formOf ct u) = some (decide (s = formOf ct u)) ∧
      strEq ct k (formOf ct u) a = some (decide (s = formOf ct u))) := by
  constructor
  · obtain ⟨s, t, h1, h2, h3, _⟩ := C92_eq ct k a (ofName i) ha (.name i hi)
    obtain ⟨t', s', h4, h5, h6, _⟩ := C92_eq ct k (ofName i) a (.name i hi) ha
    rw [h2] at h4; injection h4 with h4
    rw [h1] at h5; injection h5 with h5
    subst h4 h5
    refine ⟨s, t, h1, h2, h3, ?_⟩
    unfold nameEq
    rw [h6]; congr 1; rw [decide_eq_decide]; exact eq_comm
  · obtain ⟨b, hb, hb'⟩ := C90_string ct k u hu
    obtain ⟨s, t, h1, h2, h3, _⟩ := C92_eq ct k a b ha (.str u b hu hb)
    obtain ⟨t', s', h4, h5, h6, _⟩ := C92_eq ct k b a (.str u b hu hb) ha
    rw [hb'] at h2 h4
    injection h2 with h2
    injection h4 with h4
    rw [h1] at h5; injection h5 with h5
    subst h2 h4 h5
    refine ⟨s, h1, ?_, ?_⟩
    · unfold eqStr; rw [hb]; exact h3
    · unfold strEq; rw [hb]; show eq ct k b a = _; rw [h6]; congr 1; rw [decide_eq_decide]; exact eq_comm

example : Valid .attr 1 ∧ Made .c16 .attr (ofName 1) := by
  have h : Valid .attr 1 := Or.inr ⟨codes "Abbr", by decide +kernel⟩
  exact ⟨h, .name 1 h⟩

/-- C92. Hence the name of an atom is a matter of its string alone. -/
theorem C92_same_name (ct : CharT) (k : Kind) (a b : Atom) (ha : Made ct k a) (hb : Made ct k b)
    (h : eq ct k a b = some true) : toName a = toName b := by
  obtain ⟨s, s1, s2, s3⟩ := made ct k a ha
  obtain ⟨t, t1, t2, t3⟩ := made ct k b hb
  obtain ⟨s', t', h1, h2, h3, _⟩ := C92_eq ct k a b ha hb
  rw [h] at h3
  injection h3 with h3
  have h3 := of_decide_eq_true h3.symm
  rw [s2] at h1; rw [t2] at h2
  injection h1 with h1; injection h2 with h2
  have := form_inj ct s t s1 t1 (by rw [h1, h2, h3])
  subst this
  unfold toName
  rw [s3, t3]

example : eq .c32 .tag ⟨codes "br", 51⟩ (ofName 51) = some true := by decide +kernel

end Verif.Props.HtmlAtom
