import Verif.Proof.TagRun

/-! Character iterators. -/
namespace Verif.Proof.TagTree
open Verif.Spec Verif.Spec.Forest Verif.Spec.Tags Verif.Model.TagTree
variable {α β : Type} (text : α → Option (List β))

theorem nextText_seg {t : T α} : ∀ (w : List Nat) (a fuel : Nat), Seg t.next t.prev a w 0 → (∀ i ∈ w, i < t.len ∧ i ≠ 0) →
    w.length ≤ fuel →
    nextText text t fuel (hd w 0) = some (hd (w.dropWhile fun i => !(text (t.val i)).isSome) 0) := by
  intro w
  induction w with
  | nil => intro a fuel _ _ _; rw [nextText.eq_def]; rfl
  | cons i w ih =>
    intro a fuel S h hf
    obtain ⟨fuel, rfl⟩ : ∃ n, fuel = n + 1 := ⟨fuel - 1, by simp at hf; omega⟩
    obtain ⟨h1, h2⟩ := h i (by simp)
    have S' := S.2.2
    rw [show hd (i :: w) 0 = i from rfl, nextText, if_neg h2, T.rd, if_pos h1, Option.bind_some]
    by_cases hx : (text (t.val i)).isSome
    · rw [if_pos hx, List.dropWhile_cons, if_neg (by simp [hx])]; rfl
    · rw [if_neg hx, T.rd, if_pos h1, Option.bind_some, S'.next, ih _ fuel S' (fun j hj => h j (by simp [hj])) (by simpa using hf)]
      rw [List.dropWhile_cons, if_pos (by simp [hx])]

theorem prevText_seg {t : T α} : ∀ (w : List Nat) (b fuel : Nat), Seg t.next t.prev 0 w.reverse b → (∀ i ∈ w, i < t.len ∧ i ≠ 0) →
    w.length ≤ fuel →
    prevText text t fuel (hd w 0) = some (hd (w.dropWhile fun i => !(text (t.val i)).isSome) 0) := by
  intro w
  induction w with
  | nil => intro a fuel _ _ _; rw [prevText.eq_def]; rfl
  | cons i w ih =>
    intro a fuel S h hf
    obtain ⟨fuel, rfl⟩ : ∃ n, fuel = n + 1 := ⟨fuel - 1, by simp at hf; omega⟩
    obtain ⟨h1, h2⟩ := h i (by simp)
    rw [List.reverse_cons] at S
    obtain ⟨S1, S2⟩ := seg_mid.mp S
    have hp : t.prev i = hd w 0 := by
      rw [S1.prev]
      cases w with
      | nil => rfl
      | cons j w => rw [List.reverse_cons, lst_append]; rfl
    rw [show hd (i :: w) 0 = i from rfl, prevText, if_neg h2, T.rd, if_pos h1, Option.bind_some]
    by_cases hx : (text (t.val i)).isSome
    · rw [if_pos hx, List.dropWhile_cons, if_neg (by simp [hx])]; rfl
    · rw [if_neg hx, T.rd, if_pos h1, Option.bind_some, hp, ih _ fuel S1 (fun j hj => h j (by simp [hj])) (by simpa using hf)]
      rw [List.dropWhile_cons, if_pos (by simp [hx])]

/-- What the loop over a text node yields. -/
def shown (zero : β) : Option (List β) → List β
  | none => []
  | some s => if s = [] then [zero] else s

theorem shown_none (zero : β) : shown zero none = [] := rfl
theorem shown_nil (zero : β) : shown zero (some []) = [zero] := rfl
theorem shown_some (zero : β) {s : List β} (h : s ≠ []) : shown zero (some s) = s := if_neg h

theorem drop_texts {t : T α} (zero : β) (w : List Nat) :
    (w.dropWhile fun i => !(text (t.val i)).isSome).flatMap (fun i => shown zero (text (t.val i))) =
      w.flatMap fun i => shown zero (text (t.val i)) := by
  induction w with
  | nil => rfl
  | cons i w ih =>
    rw [List.dropWhile_cons]
    cases h : text (t.val i) with
    | none => rw [if_pos (by simp), ih, List.flatMap_cons, h]; rfl
    | some s => rw [if_neg (by simp)]

/-- The rest of one text node. -/
theorem cwalk_text {t : T α} (zero : β) {i j : Nat} {s : List β} (hi : i < t.len) (h0 : i ≠ 0) (ht : text (t.val i) = some s)
    (hn : nextText text t t.len (t.next i) = some j) (rest : List β) (m : Nat) (ih : ∀ fuel, m ≤ fuel → cwalk text zero t fuel (j, 0) = some rest) :
    ∀ (r : List β) (k : Nat), s.drop k = r → r ≠ [] → ∀ fuel, r.length + m ≤ fuel →
      cwalk text zero t fuel (i, k) = some (r ++ rest) := by
  intro r
  induction r with
  | nil => intro k _ h; exact absurd rfl h
  | cons x r ihr =>
    intro k hk _ fuel hf
    obtain ⟨fuel, rfl⟩ : ∃ n, fuel = n + 1 := ⟨fuel - 1, by simp at hf; omega⟩
    have hkl : k < s.length := by
      by_contra hc
      rw [List.drop_eq_nil_of_le (by omega)] at hk
      simp at hk
    have hx : s[k]? = some x := by
      have := congrArg List.head? hk
      simpa [List.head?_drop] using this
    have hr : s.drop (k + 1) = r := by
      have := congrArg List.tail hk
      simpa [List.tail_drop] using this
    have hd' : cderef text zero t (i, k) = some x := by
      rw [cderef, if_neg h0, T.rd, if_pos hi, Option.bind_some, ht, Option.bind_some, if_neg (by dsimp only; omega), hx]
    rw [cwalk, if_neg (by intro e; exact h0 (congrArg Prod.fst e)), hd', Option.bind_some]
    have hlen : r.length = s.length - (k + 1) := by rw [← hr, List.length_drop]
    by_cases hk1 : k + 1 < s.length
    · have hc : cincr text t (i, k) = some (i, k + 1) := by
        rw [cincr, if_neg h0, T.rd, if_pos hi, Option.bind_some, ht]
        dsimp only
        rw [if_pos hk1]
      rw [hc, Option.bind_some, ihr (k + 1) hr (by intro e; rw [e] at hlen; simp at hlen; omega) fuel (by simp at hf; omega)]
      rfl
    · have hr0 : r = [] := List.eq_nil_of_length_eq_zero (by omega)
      have hc : cincr text t (i, k) = some (j, 0) := by
        rw [cincr, if_neg h0, T.rd, if_pos hi, Option.bind_some, ht]
        dsimp only
        rw [if_neg hk1, T.rd, if_pos hi, Option.bind_some, hn]
        rfl
      rw [hc, Option.bind_some, ih fuel (by simp at hf; omega), hr0]
      rfl

theorem cwalk_seg {t : T α} (zero : β) : ∀ (w : List Nat) (a : Nat), Seg t.next t.prev a w 0 → (∀ i ∈ w, i < t.len ∧ i ≠ 0) →
    w.length ≤ t.len → ∀ fuel, (w.flatMap fun i => shown zero (text (t.val i))).length ≤ fuel →
    cwalk text zero t fuel (hd (w.dropWhile fun i => !(text (t.val i)).isSome) 0, 0) =
      some (w.flatMap fun i => shown zero (text (t.val i))) := by
  intro w
  induction w with
  | nil => intro a _ _ _ fuel _; rw [cwalk.eq_def]; rfl
  | cons i w ih =>
    intro a S h hl fuel hf
    obtain ⟨h1, h2⟩ := h i (by simp)
    have S' := S.2.2
    have ih' := ih i S' (fun j hj => h j (by simp [hj])) (by simp at hl; omega)
    rw [List.dropWhile_cons]
    cases ht : text (t.val i) with
    | none =>
      simp only [Option.isSome_none, Bool.not_false, if_true, List.flatMap_cons, ht, shown_none, List.nil_append] at hf ⊢
      exact ih' fuel hf
    | some s =>
      simp only [Option.isSome_some, Bool.not_true, Bool.false_eq_true, if_false, List.flatMap_cons, ht] at hf ⊢
      rw [show hd (i :: w) 0 = i from rfl]
      have hn : nextText text t t.len (t.next i) = some (hd (w.dropWhile fun i => !(text (t.val i)).isSome) 0) := by
        rw [S'.next]
        exact nextText_seg text w i t.len S' (fun j hj => h j (by simp [hj])) (by simp at hl; omega)
      by_cases hs : s = []
      · subst hs
        rw [shown_nil] at hf ⊢
        rw [List.length_append, List.length_singleton] at hf
        obtain ⟨fuel, rfl⟩ : ∃ n, fuel = n + 1 := ⟨fuel - 1, by omega⟩
        have hd' : cderef text zero t (i, 0) = some zero := by
          rw [cderef, if_neg h2, T.rd, if_pos h1, Option.bind_some, ht]; rfl
        have hc : cincr text t (i, 0) = some (hd (w.dropWhile fun i => !(text (t.val i)).isSome) 0, 0) := by
          rw [cincr, if_neg h2, T.rd, if_pos h1, Option.bind_some, ht]
          dsimp only
          rw [if_neg (by simp), T.rd, if_pos h1, Option.bind_some, hn]
          rfl
        rw [cwalk, if_neg (by intro e; exact h2 (congrArg Prod.fst e)), hd', Option.bind_some, hc, Option.bind_some,
          ih' fuel (by omega)]
        rfl
      · rw [shown_some zero hs] at hf ⊢
        rw [List.length_append] at hf
        exact cwalk_text text zero h1 h2 ht hn _ _ ih' s 0 rfl hs fuel hf

/-- What backward loops yield. -/
theorem cback_text {t : T α} (zero : β) {i : Nat} {s : List β} (hi : i < t.len) (h0 : i ≠ 0) (ht : text (t.val i) = some s)
    (rest : List β) (m : Nat) (ih : ∀ fuel, m ≤ fuel → cbackWalk text zero t fuel (i, 0) = some rest) :
    ∀ (k : Nat), k ≤ s.length → ∀ fuel, k + m ≤ fuel →
      cbackWalk text zero t fuel (i, k) = some ((s.take k).reverse ++ rest) := by
  intro k
  induction k with
  | zero => intro _ fuel hf; rw [ih fuel (by omega)]; simp
  | succ k ihk =>
    intro hk fuel hf
    obtain ⟨fuel, rfl⟩ : ∃ n, fuel = n + 1 := ⟨fuel - 1, by omega⟩
    have hx : s[k]? = some s[k] := List.getElem?_eq_getElem (by omega)
    have hc : cdecr text t (i, k + 1) = some (i, k) := by
      rw [cdecr, if_pos h0, T.rd, if_pos hi, Option.bind_some, ht]
      dsimp only
      rw [if_pos (by omega)]; rfl
    have hd' : cderef text zero t (i, k) = some s[k] := by
      rw [cderef, if_neg h0, T.rd, if_pos hi, Option.bind_some, ht, Option.bind_some, if_neg (by dsimp only; omega), hx]
    rw [cbackWalk, hc, Option.bind_some, if_neg (by intro e; exact h0 (congrArg Prod.fst e))]
    dsimp only
    rw [hd', Option.bind_some, ihk (by omega) fuel (by omega), List.take_add_one, hx, List.reverse_append]
    rfl

theorem wrap {n : Nat} (h0 : 0 < n) (h : n < 2 ^ 32) : pred32 n = n - 1 := by
  rw [pred32, show n + 2 ^ 32 - 1 = (n - 1) + 2 ^ 32 by omega, Nat.add_mod_right, Nat.mod_eq_of_lt (by omega)]

/-- The tags are those left of the iterator, nearest first. -/
theorem cback_seg {t : T α} (zero : β) : ∀ (w : List Nat) (b k : Nat), Seg t.next t.prev 0 w.reverse b → (∀ i ∈ w, i < t.len ∧ i ≠ 0) →
    w.length ≤ t.len → (∀ i ∈ w, ∀ s, text (t.val i) = some s → s ≠ [] ∧ s.length < 2 ^ 32) → k = 0 →
    ∀ fuel, (w.flatMap fun i => ((text (t.val i)).getD []).reverse).length ≤ fuel →
    cdecr text t (b, 0) = cback text t (hd w 0) k →
    cbackWalk text zero t fuel (b, 0) = some (w.flatMap fun i => ((text (t.val i)).getD []).reverse) := by
  intro w
  induction w with
  | nil =>
    intro b k _ _ _ _ hk0 fuel _ hc
    rw [cbackWalk.eq_def]
    dsimp only
    rw [hc, cback, show hd ([] : List Nat) 0 = 0 from rfl, prevText.eq_def]
    simp [hk0]
  | cons i w ih =>
    intro b k S h hl hs hk0 fuel hf hc
    obtain ⟨h1, h2⟩ := h i (by simp)
    rw [List.reverse_cons] at S
    obtain ⟨S1, S2⟩ := seg_mid.mp S
    have hp : t.prev i = hd w 0 := by
      rw [S1.prev]
      cases w with
      | nil => rfl
      | cons j w => rw [List.reverse_cons, lst_append]; rfl
    have hpt : prevText text t t.len (hd (i :: w) 0) = _ := prevText_seg text (i :: w) b t.len (by rw [List.reverse_cons]; exact S) h hl
    have hlw : w.length ≤ t.len := by simp at hl; omega
    have hpw : prevText text t t.len (hd w 0) = _ := prevText_seg text w i t.len S1 (fun j hj => h j (by simp [hj])) hlw
    cases ht : text (t.val i) with
    | none =>
      simp only [List.flatMap_cons, ht, Option.getD_none, List.reverse_nil, List.nil_append] at hf ⊢
      have e : cback text t (hd (i :: w) 0) k = cback text t (hd w 0) k := by
        rw [cback, cback, hpt, hpw, List.dropWhile_cons, if_pos (by simp [ht])]
      have S' : Seg t.next t.prev 0 w.reverse i := S1
      -- same step from `i`
      have hci : cdecr text t (i, 0) = cback text t (hd w 0) 0 := by
        rw [cdecr, if_pos h2, T.rd, if_pos h1, Option.bind_some, ht]
        dsimp only
        rw [cback, cback, hpw]
        have := prevText_seg text (i :: w) b t.len (by rw [List.reverse_cons]; exact S) h hl
        rw [show hd (i :: w) 0 = i from rfl] at this
        rw [this, List.dropWhile_cons, if_pos (by simp [ht])]
      have := ih i 0 S1 (fun j hj => h j (by simp [hj])) hlw (fun j hj => hs j (by simp [hj])) rfl fuel hf hci
      rw [← this, cbackWalk.eq_def, cbackWalk.eq_def text zero t fuel (i, 0)]
      dsimp only
      rw [hc, e, hci, hk0]
    | some s =>
      obtain ⟨hs1, hs2⟩ := hs i (by simp) s ht
      have hs0 : 0 < s.length := List.length_pos_iff.mpr hs1
      have hci : cdecr text t (i, 0) = cback text t (hd w 0) 0 := by
        rw [cdecr, if_pos h2, T.rd, if_pos h1, Option.bind_some, ht]
        dsimp only
        rw [if_neg (by simp), T.rd, if_pos h1, Option.bind_some, hp]
      have ih' := fun fuel hf => ih i 0 S1 (fun j hj => h j (by simp [hj])) hlw (fun j hj => hs j (by simp [hj])) rfl fuel hf hci
      simp only [List.flatMap_cons, ht, Option.getD_some] at hf ⊢
      have hfr : cdecr text t (b, 0) = some (i, s.length - 1) := by
        rw [hc, cback, hpt, List.dropWhile_cons, ht]
        simp only [Option.isSome_some, Bool.not_true, Bool.false_eq_true, if_false, Option.bind_some]
        rw [show hd (i :: w) 0 = i from rfl, if_neg h2, T.rd, if_pos h1, Option.bind_some, ht, Option.map_some, wrap hs0 hs2]
      obtain ⟨fuel, rfl⟩ : ∃ n, fuel = n + 1 := ⟨fuel - 1, by simp at hf; omega⟩
      have hd' : cderef text zero t (i, s.length - 1) = some (s[s.length - 1]) := by
        rw [cderef, if_neg h2, T.rd, if_pos h1, Option.bind_some, ht, Option.bind_some, if_neg (by dsimp only; omega),
          List.getElem?_eq_getElem]
      rw [cbackWalk, hfr, Option.bind_some, if_neg (by intro e; exact h2 (congrArg Prod.fst e))]
      dsimp only
      rw [hd', Option.bind_some, cback_text text zero h1 h2 ht _ _ ih' (s.length - 1) (by omega) fuel (by simp at hf ⊢; omega)]
      have : s.reverse = s[s.length - 1] :: (s.take (s.length - 1)).reverse := by
        conv_lhs => rw [show s = s.take (s.length - 1) ++ [s[s.length - 1]] by
          rw [List.take_append_getElem (by omega)]; rw [List.take_of_length_le (by omega)]]
        rw [List.reverse_append]; rfl
      rw [this]
      rfl

section
variable [Inhabited α] {t : T α} {f : TF α} {l d : List Nat}

theorem flat_names {γ : Type} (g : Option (List β) → List γ) (hg : g none = []) (hd' : text default = none) {f : TF α} (w : wf f)
    (hG : ∀ n ∈ nodes f, Tg t n.1 n.2.1 n.2.2) :
    (names f).flatMap (fun i => g (text (t.val i))) = (nodes f).flatMap fun e => g (text e.2.1) := by
  induction f with
  | nil => rfl
  | cons i x k s hk hs =>
    obtain ⟨w1, w2, w3⟩ := w
    have G := hG (i, x) (by simp [nodes])
    have hk := hk w2 (fun n hn => hG n (by simp [nodes, hn]))
    have hs := hs w3 (fun n hn => hG n (by simp [nodes, hn]))
    rw [names, nodes, List.flatMap_cons, List.flatMap_cons, G.val, List.flatMap_append]
    congr 1
    by_cases he : x.2 = 0
    · rw [if_pos he, hs, w1 he]; rfl
    · rw [if_neg he, List.flatMap_append, List.flatMap_cons, G.eval he, hd', hg, hk, hs]; rfl

theorem texts_flat (g : List β → List β) :
    (nodes f).flatMap (fun e => match text e.2.1 with | none => [] | some s => g s) = (texts text f).flatMap g := by
  unfold texts
  induction nodes f with
  | nil => rfl
  | cons a n ih =>
    rw [List.flatMap_cons, List.filterMap_cons, ih]
    cases text a.2.1 <;> rfl

theorem Rep.cwalk (R : Rep t f l d) (zero : β) (hd' : text default = none) :
    ∃ b c, Model.TagTree.begin0 t = some b ∧ cmake text t b = some c ∧
      ∀ fuel, ((texts text f).flatMap fun s => if s = [] then [zero] else s).length ≤ fuel →
        Model.TagTree.cwalk text zero t fuel c = some ((texts text f).flatMap fun s => if s = [] then [zero] else s) := by
  have S := R.lk.main
  have hw : ∀ i ∈ names f, i < t.len ∧ i ≠ 0 := fun i h => ⟨R.lk.w_lt h, R.lk.w0 h⟩
  have e : (names f).flatMap (fun i => shown zero (text (t.val i))) = (texts text f).flatMap fun s => if s = [] then [zero] else s := by
    rw [flat_names text (shown zero) rfl hd' R.ok R.tg, ← texts_flat]
    rfl
  refine ⟨_, (hd ((names f).dropWhile fun i => !(text (t.val i)).isSome) 0, 0),
    by rw [Model.TagTree.begin0, T.rd, if_pos R.lk.len, S.next], ?_, ?_⟩
  · rw [cmake, nextText_seg text _ 0 _ S hw R.len_names]; rfl
  · intro fuel hf
    rw [← e] at hf ⊢
    exact cwalk_seg text zero _ 0 S hw R.len_names fuel hf

theorem Rep.cback (R : Rep t f l d) (zero : β) (hd' : text default = none) (hs : ∀ s ∈ texts text f, s ≠ [] ∧ s.length < 2 ^ 32) :
    ∀ fuel, (texts text f).flatten.length ≤ fuel →
      cbackWalk text zero t fuel (0, 0) = some (texts text f).flatten.reverse := by
  have S := R.lk.main
  have hw : ∀ i ∈ names f, i < t.len ∧ i ≠ 0 := fun i h => ⟨R.lk.w_lt h, R.lk.w0 h⟩
  have e : (names f).flatMap (fun i => (text (t.val i)).getD []) = (texts text f).flatten := by
    rw [flat_names text (fun o => o.getD []) rfl hd' R.ok R.tg]
    have := texts_flat text (f := f) id
    rw [List.flatMap_id] at this
    rw [← this]
    congr 1
    funext e
    cases text e.2.1 <;> rfl
  have e' : ((names f).reverse.flatMap fun i => ((text (t.val i)).getD []).reverse) = (texts text f).flatten.reverse := by
    rw [← e, List.reverse_flatMap]
    congr 1
  intro fuel hf
  rw [← e']
  refine cback_seg text zero (names f).reverse 0 0 (by rw [List.reverse_reverse]; exact S)
    (fun i hi => hw i (List.mem_reverse.mp hi)) (by rw [List.length_reverse]; exact R.len_names) ?_ rfl fuel ?_ ?_
  · intro i hi s h
    have hi := List.mem_reverse.mp hi
    rcases (mem_names R.ok).mp hi with hi | hi
    · rw [ids_eq] at hi
      obtain ⟨n, hn, rfl⟩ := List.mem_map.mp hi
      rw [(R.tg n hn).val] at h
      exact hs s (List.mem_filterMap.mpr ⟨n, hn, h⟩)
    · obtain ⟨hi, h0⟩ := List.mem_filter.mp hi
      obtain ⟨n, hn, rfl⟩ := List.mem_map.mp hi
      rw [(R.tg n hn).eval (by simpa using h0), hd'] at h
      exact absurd h (by simp)
  · rw [e', List.length_reverse]; exact hf
  · rw [cdecr, if_neg (by simp), T.rd, if_pos R.lk.len, Option.bind_some, S.prev]
    congr 1
    cases h : names f using List.reverseRecOn with
    | nil => rfl
    | append_singleton w a _ => rw [lst_append, List.reverse_append]; rfl
end
end Verif.Proof.TagTree
