import Verif.Model.Infra
import Verif.Spec.Infra
import Verif.Proof.Unicode
namespace Verif.Proof.Infra
open Verif.Model.Unicode Verif.Model.Infra Verif.Spec Verif.Spec.Infra Verif.Proof.Unicode

theorem isWs_iff (c : Nat) : isAsciiWhiteSpace c = true ↔ IsWs c := by
  simp [isAsciiWhiteSpace, IsWs, or_assoc]

theorem isWs_decide (c : Nat) : isAsciiWhiteSpace c = decide (IsWs c) := by
  rw [Bool.eq_iff_iff, isWs_iff]; simp

theorem enc_append (ct : CharT) (s t : List Nat) :
    (s ++ t).flatMap (encForm ct) = s.flatMap (encForm ct) ++ t.flatMap (encForm ct) := List.flatMap_append

/-! newline normalization -/

def pre : NLState → List Nat
  | .start => []
  | .cr => [13]

theorem normNL_cr (s : List Nat) (h : s.head? ≠ some 10) : normNL (13 :: s) = 10 :: normNL s := by
  rw [normNL.eq_def]; split <;> simp_all

theorem normNL_cons (c : Nat) (s : List Nat) (h : c ≠ 13) : normNL (c :: s) = c :: normNL s := by
  rw [normNL.eq_def]; split <;> simp_all

theorem normalize_fold (dst : CharT) (s : List Nat) (st : NLState) (out : List Nat) :
    ∃ st' o, s.foldlM (normalizeBody dst) (st, out) = some (st', o) ∧
      o ++ (if st' = .cr then [10] else []) = out ++ (normNL (pre st ++ s)).map (· % unitMod dst) ∧
      (st' = .cr ↔ (pre st ++ s).getLast? = some 13) := by
  have hu : 10 % unitMod dst = 10 := by cases dst <;> decide
  induction s generalizing st out with
  | nil =>
    refine ⟨st, out, rfl, ?_, ?_⟩ <;> cases st <;> simp [pre, normNL, hu]
  | cons c s ih =>
    rw [List.foldlM_cons]
    cases st with
    | start =>
      by_cases h13 : c = 13
      · subst h13
        simp only [normalizeBody, if_true]
        obtain ⟨st', o, h1, h2, h3⟩ := ih .cr out
        exact ⟨st', o, h1, by simpa [pre] using h2, by simpa [pre] using h3⟩
      · by_cases h10 : c = 10
        · subst h10
          simp only [normalizeBody]
          obtain ⟨st', o, h1, h2, h3⟩ := ih .start (out ++ [10])
          refine ⟨st', o, h1, ?_, ?_⟩
          · rw [h2]; simp [pre, normNL_cons, hu]
          · rw [h3]; cases s <;> simp [pre]
        · simp only [normalizeBody, h13, h10, if_false]
          obtain ⟨st', o, h1, h2, h3⟩ := ih .start (out ++ [c % unitMod dst])
          refine ⟨st', o, h1, ?_, ?_⟩
          · rw [h2]; simp [pre, normNL_cons _ _ h13]
          · rw [h3]; cases s <;> simp [pre, h13]
    | cr =>
      by_cases h13 : c = 13
      · subst h13
        simp only [normalizeBody, if_true]
        obtain ⟨st', o, h1, h2, h3⟩ := ih .cr (out ++ [10])
        refine ⟨st', o, h1, ?_, ?_⟩
        · rw [h2]; simp [pre, normNL_cr (13 :: s) (by simp), hu]
        · rw [h3]; simp [pre]
      · by_cases h10 : c = 10
        · subst h10
          simp only [normalizeBody]
          obtain ⟨st', o, h1, h2, h3⟩ := ih .start (out ++ [10])
          refine ⟨st', o, h1, ?_, ?_⟩
          · rw [h2]; simp [pre, normNL, hu]
          · rw [h3]; cases s <;> simp [pre]
        · simp only [normalizeBody, h13, h10, if_false]
          obtain ⟨st', o, h1, h2, h3⟩ := ih .start (out ++ [10] ++ [c % unitMod dst])
          refine ⟨st', o, h1, ?_, ?_⟩
          · rw [h2]; simp [pre, normNL_cons _ _ h13, normNL_cr (c :: s) (by simp [h10]), hu]
          · rw [h3]; cases s <;> simp [pre, h13]

/-! stripping -/

theorem push_fold (s out : List Nat) :
    s.foldlM (m := Option) (fun tmp cp => some (tmp ++ [cp])) out = some (out ++ s) := by
  induction s generalizing out with
  | nil => simp
  | cons c s ih => rw [List.foldlM_cons]; simp only [Option.bind_eq_bind, Option.bind_some]; rw [ih]; simp

theorem takeWhile_append_of_exists {p : Nat → Bool} {a b : List Nat} (h : ∃ x ∈ a, p x = false) :
    (a ++ b).takeWhile p = a.takeWhile p := by
  induction a with
  | nil => obtain ⟨x, hx, _⟩ := h; simp at hx
  | cons c a ih =>
    simp only [List.cons_append, List.takeWhile_cons]
    cases hc : p c with
    | false => simp
    | true =>
      obtain ⟨x, hx, hp⟩ := h
      simp only [if_true]
      rw [ih]
      rcases List.mem_cons.mp hx with rfl | hx
      · rw [hc] at hp; cases hp
      · exact ⟨x, hx, hp⟩

theorem mem_takeWhile_imp {p : Nat → Bool} {s : List Nat} : ∀ c ∈ s.takeWhile p, p c = true := by
  induction s with
  | nil => simp
  | cons c s ih =>
    rw [List.takeWhile_cons]; split
    · intro x hx; rcases List.mem_cons.mp hx with rfl | hx
      · assumption
      · exact ih x hx
    · simp

theorem head_dropWhile {p : Nat → Bool} {s : List Nat} {c : Nat} (h : (s.dropWhile p).head? = some c) : p c = false := by
  induction s with
  | nil => simp at h
  | cons x s ih =>
    rw [List.dropWhile_cons] at h; split at h
    · exact ih h
    · rename_i hx; simp only [List.head?_cons, Option.some.injEq] at h; subst h; simpa using hx

/-- The middle part found by the two searches. -/
theorem strip_split (s : List Nat) (h : s = [] ∨ ∃ c ∈ s, ¬ IsWs c) :
    ∃ t, IsTrim s t ∧ (s.takeWhile isAsciiWhiteSpace).length ≤ s.length - (s.reverse.takeWhile isAsciiWhiteSpace).length ∧
      ((s.take (s.length - (s.reverse.takeWhile isAsciiWhiteSpace).length)).drop
        (s.takeWhile isAsciiWhiteSpace).length) = t := by
  rcases h with rfl | ⟨c, hc, hw⟩
  · exact ⟨[], ⟨[], [], by simp⟩, by simp, by simp⟩
  · have hcf : isAsciiWhiteSpace c = false := by
      rw [← Bool.not_eq_true, isWs_iff]; exact hw
    -- rest after the leading run
    have hs : s = s.takeWhile isAsciiWhiteSpace ++ s.dropWhile isAsciiWhiteSpace := (List.takeWhile_append_dropWhile).symm
    generalize hl : s.takeWhile isAsciiWhiteSpace = l at *
    generalize hm : s.dropWhile isAsciiWhiteSpace = m at *
    have hlw : ∀ x ∈ l, isAsciiWhiteSpace x = true := by rw [← hl]; exact mem_takeWhile_imp
    have hcm : c ∈ m := by
      rw [hs] at hc
      rcases List.mem_append.mp hc with h | h
      · rw [hlw c h] at hcf; cases hcf
      · exact h
    have hr : s.reverse.takeWhile isAsciiWhiteSpace = m.reverse.takeWhile isAsciiWhiteSpace := by
      rw [hs, List.reverse_append]
      exact takeWhile_append_of_exists ⟨c, by simpa using hcm, hcf⟩
    rw [hr]
    have hm2 : m.reverse = m.reverse.takeWhile isAsciiWhiteSpace ++ m.reverse.dropWhile isAsciiWhiteSpace :=
      (List.takeWhile_append_dropWhile).symm
    generalize hr' : m.reverse.takeWhile isAsciiWhiteSpace = r' at *
    generalize ht' : m.reverse.dropWhile isAsciiWhiteSpace = t' at *
    have hrw : ∀ x ∈ r', isAsciiWhiteSpace x = true := by rw [← hr']; exact mem_takeWhile_imp
    have hmt : m = t'.reverse ++ r'.reverse := by
      have := congrArg List.reverse hm2
      simpa using this
    have hct : c ∈ t' := by
      have : c ∈ t'.reverse ++ r'.reverse := hmt ▸ hcm
      rcases List.mem_append.mp this with h | h
      · simpa using h
      · rw [hrw c (by simpa using h)] at hcf; cases hcf
    refine ⟨t'.reverse, ⟨l, r'.reverse, ?_, ?_, ?_, ?_, ?_, ?_⟩, ?_, ?_⟩
    · rw [hs, hmt]; simp
    · intro x hx; exact (isWs_iff x).mp (hlw x hx)
    · intro x hx; exact (isWs_iff x).mp (hrw x (by simpa using hx))
    · intro x hx
      rw [← isWs_iff, Bool.not_eq_true]
      apply head_dropWhile (s := s)
      rw [hm, hmt]
      cases h : t'.reverse with
      | nil => rw [h] at hx; simp at hx
      | cons y ys => rw [h] at hx; simpa using hx
    · intro x hx
      rw [← isWs_iff, Bool.not_eq_true]
      apply head_dropWhile (s := m.reverse)
      rw [ht']; simpa using hx
    · intro h0; simp at h0; subst h0; simp at hct
    · rw [hs, hmt]; simp; omega
    · rw [hs, hmt]
      simp only [List.length_append, List.length_reverse]
      rw [show l.length + (t'.length + r'.length) - r'.length = l.length + t'.length by omega]
      rw [List.take_append, List.drop_append, List.take_append, List.take_of_length_le (l := l) (by omega),
        List.take_of_length_le (l := t'.reverse) (by simp)]
      simp

/-! strip and collapse -/

theorem fields_ne_nil (sep : Nat → Prop) [DecidablePred sep] (s : List Nat) : fields sep s ≠ [] := by
  cases s with
  | nil => simp [fields]
  | cons c s => simp only [fields]; split
                · simp
                · split <;> simp

def gap (ws : List (List Nat)) : List Nat := ws.flatMap (32 :: ·)

/-- What is still to be written from a state of the collapse loop. -/
def collapseOut : SCState → List Nat → List Nat
  | .start, s => join 32 (words s)
  | .leading, s => join 32 (words s)
  | .normal, s => (fields IsWs s).headD [] ++ gap ((fields IsWs s).tail.filter (· ≠ []))
  | .ws, s => gap (words s)

theorem join_cons (w : List Nat) (ws : List (List Nat)) : join 32 (w :: ws) = w ++ gap ws := by
  induction ws generalizing w with
  | nil => simp [join, gap]
  | cons v ws ih => rw [join, ih]; simp [gap]; simp

theorem words_ws (c : Nat) (s : List Nat) (h : IsWs c) : words (c :: s) = words s := by
  simp [words, fields, h]

theorem words_nonws (c : Nat) (s : List Nat) (h : ¬ IsWs c) :
    words (c :: s) = (c :: (fields IsWs s).headD []) :: (fields IsWs s).tail.filter (· ≠ []) := by
  simp only [words, fields, h, if_false]
  have := fields_ne_nil IsWs s
  split
  · contradiction
  · rename_i f fs e; rw [e]; simp

theorem collapse_fold (dst : CharT) (s : List Nat) (hs : ∀ c ∈ s, IsScalar c) (st : SCState) (out : List Nat) :
    ∃ st', s.foldlM (stripCollapseBody dst) (st, out)
      = some (st', out ++ (collapseOut st s).flatMap (encForm dst)) := by
  induction s generalizing st out with
  | nil => exact ⟨st, by cases st <;> simp [collapseOut, words, fields, join, gap]⟩
  | cons c s ih =>
    have hc := hs c (by simp)
    have ih := ih (fun x hx => hs x (by simp [hx]))
    have h20 : emit dst out 0x20 = some (out ++ encForm dst 0x20) := emit_scalar dst out (by decide)
    rw [List.foldlM_cons]
    by_cases hw : IsWs c
    · have hb := (isWs_iff c).mpr hw
      have key : ∀ st1, stripCollapseBody dst (st, out) c = some (st1, out) →
          collapseOut st (c :: s) = collapseOut st1 s → ∃ st', (do
            let s' ← stripCollapseBody dst (st, out) c
            List.foldlM (stripCollapseBody dst) s' s) = some (st', out ++ (collapseOut st (c :: s)).flatMap (encForm dst)) := by
        intro st1 h1 h2
        rw [h1, h2]
        exact ih st1 out
      cases st with
      | start => exact key .leading (by simp [stripCollapseBody, hb]) (by simp [collapseOut, words_ws c s hw])
      | leading => exact key .leading (by simp [stripCollapseBody, hb]) (by simp [collapseOut, words_ws c s hw])
      | normal => exact key .ws (by simp [stripCollapseBody, hb]) (by simp [collapseOut, words, fields, hw])
      | ws => exact key .ws (by simp [stripCollapseBody, hb]) (by simp [collapseOut, words_ws c s hw])
    · have hb : isAsciiWhiteSpace c = false := by rw [← Bool.not_eq_true, isWs_iff]; exact hw
      have hfd : (fields IsWs (c :: s)).headD [] = c :: (fields IsWs s).headD [] ∧
          (fields IsWs (c :: s)).tail = (fields IsWs s).tail := by
        simp only [fields, hw, if_false]
        have := fields_ne_nil IsWs s
        split
        · contradiction
        · rename_i f fs e; rw [e]; simp
      have key : ∀ pref, stripCollapseBody dst (st, out) c = some (.normal, out ++ (pref ++ [c]).flatMap (encForm dst)) →
          collapseOut st (c :: s) = pref ++ c :: collapseOut .normal s → ∃ st', (do
            let s' ← stripCollapseBody dst (st, out) c
            List.foldlM (stripCollapseBody dst) s' s) = some (st', out ++ (collapseOut st (c :: s)).flatMap (encForm dst)) := by
        intro pref h1 h2
        rw [h1, h2]
        obtain ⟨st', h⟩ := ih .normal (out ++ (pref ++ [c]).flatMap (encForm dst))
        refine ⟨st', ?_⟩
        simp only [Option.bind_eq_bind, Option.bind_some, h]
        simp
      cases st with
      | start =>
        refine key [] (by simp [stripCollapseBody, hb, emit_scalar dst _ hc]) ?_
        simp only [collapseOut, words_nonws c s hw, join_cons]; simp
      | leading =>
        refine key [] (by simp [stripCollapseBody, hb, emit_scalar dst _ hc]) ?_
        simp only [collapseOut, words_nonws c s hw, join_cons]; simp
      | normal =>
        refine key [] (by simp [stripCollapseBody, hb, emit_scalar dst _ hc]) ?_
        simp only [collapseOut, hfd.1, hfd.2]; simp
      | ws =>
        refine key [32] ?_ ?_
        · simp only [stripCollapseBody, hb, h20]
          simp [emit_scalar dst _ hc]
        · simp only [collapseOut, words_nonws c s hw, gap]; simp

/-! collecting and splitting -/

theorem collect_eq (src dst : CharT) (cond : Nat → Bool) (s out : List Nat) (hs : ∀ c ∈ s, IsScalar c) :
    collect src dst cond out (s.flatMap (encForm src))
      = some ((s.dropWhile cond).flatMap (encForm src), out ++ (s.takeWhile cond).flatMap (encForm dst)) := by
  induction s generalizing out with
  | nil => rw [collect]; simp
  | cons c s ih =>
    have hc := hs c (by simp)
    have hne : (encForm src c ++ s.flatMap (encForm src)).isEmpty = false := by simp [encForm_ne_nil]
    rw [List.flatMap_cons, collect]
    simp only [hne, Bool.false_eq_true, if_false]
    split
    · rename_i h; rw [toCodePoint_scalar src hc] at h; cases h
    · rename_i h; rw [toCodePoint_scalar src hc] at h; cases h
      rw [List.dropWhile_cons, List.takeWhile_cons]
      cases hcond : cond c with
      | false => simp
      | true =>
        simp only [emit_scalar dst out hc, ih _ (fun x hx => hs x (by simp [hx]))]
        simp

theorem skip_eq (src : CharT) (s : List Nat) (hs : ∀ c ∈ s, IsScalar c) :
    skipWhitespace src (s.flatMap (encForm src)) = some ((s.dropWhile isAsciiWhiteSpace).flatMap (encForm src)) := by
  induction s with
  | nil => rw [skipWhitespace]; simp
  | cons c s ih =>
    have hc := hs c (by simp)
    have hne : (encForm src c ++ s.flatMap (encForm src)).isEmpty = false := by simp [encForm_ne_nil]
    rw [List.flatMap_cons, skipWhitespace]
    simp only [hne, Bool.false_eq_true, if_false]
    split
    · rename_i h; rw [toCodePoint_scalar src hc] at h; cases h
    · rename_i h; rw [toCodePoint_scalar src hc] at h; cases h
      rw [List.dropWhile_cons]
      cases hcond : isAsciiWhiteSpace c with
      | false => simp
      | true => simp [ih (fun x hx => hs x (by simp [hx]))]

/-- Unfolding `fields` piece by piece. -/
theorem fields_eq (sep : Nat → Prop) [DecidablePred sep] (s : List Nat) :
    fields sep s = s.takeWhile (fun c => !decide (sep c)) ::
      (match s.dropWhile (fun c => !decide (sep c)) with
        | [] => []
        | _ :: r => fields sep r) := by
  induction s with
  | nil => simp [fields]
  | cons c s ih =>
    by_cases h : sep c
    · simp [fields, h]
    · simp only [fields, h, if_false, List.takeWhile_cons, List.dropWhile_cons, decide_false, Bool.not_false, if_true]
      rw [ih]

theorem dropWhile_length_le (p : Nat → Bool) (s : List Nat) : (s.dropWhile p).length ≤ s.length := by
  induction s with
  | nil => simp
  | cons c s ih => rw [List.dropWhile_cons]; split <;> simp <;> omega

theorem dropWhile_subset (p : Nat → Bool) (s : List Nat) : ∀ c ∈ s.dropWhile p, c ∈ s := fun _ h =>
  (List.dropWhile_sublist p).subset h

theorem enc_length_le (ct : CharT) (s : List Nat) : s.length ≤ (s.flatMap (encForm ct)).length := by
  induction s with
  | nil => simp
  | cons c s ih =>
    rw [List.flatMap_cons, List.length_append, List.length_cons]
    have := List.length_pos_iff.mpr (encForm_ne_nil ct c)
    omega

theorem strictlySplitLoop_eq (ct : CharT) (d : Nat) (hd : IsScalar d) (hu : encForm ct d = [d]) (fuel : Nat) :
    ∀ (s : List Nat) (out : List (List Nat)), s.length < fuel → (∀ c ∈ s, IsScalar c) →
      strictlySplitLoop ct d fuel ((d :: s).flatMap (encForm ct)) out
        = some (out ++ (fields (· = d) s).map (·.flatMap (encForm ct))) := by
  induction fuel with
  | zero => intro s out h; omega
  | succ fuel ih =>
    intro s out hf hs
    have e : (d :: s).flatMap (encForm ct) = d :: s.flatMap (encForm ct) := by
      rw [List.flatMap_cons, hu]; rfl
    have ht : toCodePoint ct (d :: s.flatMap (encForm ct)) = some (d, s.flatMap (encForm ct)) := by
      have := toCodePoint_scalar ct hd (s.flatMap (encForm ct))
      rwa [hu] at this
    have hp : (fun cp : Nat => cp != d) = (fun c => !decide (c = d)) := by
      funext c; by_cases h : c = d <;> simp [h]
    rw [e, strictlySplitLoop, ht]
    simp only [ne_eq, not_true_eq_false, if_false, collect_eq ct ct _ s [] hs, List.nil_append]
    rw [hp, fields_eq]
    cases hdw : s.dropWhile (fun c => !decide (c = d)) with
    | nil => cases fuel <;> simp [strictlySplitLoop]
    | cons x r =>
      have hx : x = d := by
        have := head_dropWhile (s := s) (p := fun c => !decide (c = d)) (c := x) (by rw [hdw]; rfl)
        simpa using this
      subst hx
      have hlen := dropWhile_length_le (fun c => !decide (c = x)) s
      rw [hdw] at hlen
      rw [ih r _ (by simp at hlen; omega)
        (fun c hc => hs c (dropWhile_subset _ s c (by rw [hdw]; simp [hc])))]
      simp

theorem strictlySplit_eq (ct : CharT) (d : Nat) (hd : IsScalar d) (hu : encForm ct d = [d]) (s : List Nat)
    (hs : ∀ c ∈ s, IsScalar c) :
    strictlySplit ct d (s.flatMap (encForm ct)) = some ((fields (· = d) s).map (·.flatMap (encForm ct))) := by
  have hp : (fun cp : Nat => cp != d) = (fun c => !decide (c = d)) := by
    funext c; by_cases h : c = d <;> simp [h]
  rw [strictlySplit, hp]
  simp only [collect_eq ct ct _ s [] hs, List.nil_append]
  rw [fields_eq]
  cases hdw : s.dropWhile (fun c => !decide (c = d)) with
  | nil =>
    cases (List.flatMap (encForm ct) s).length <;> simp [strictlySplitLoop]
  | cons x r =>
    have hx : x = d := by
      have := head_dropWhile (s := s) (p := fun c => !decide (c = d)) (c := x) (by rw [hdw]; rfl)
      simpa using this
    subst hx
    have hlen := dropWhile_length_le (fun c => !decide (c = x)) s
    rw [hdw] at hlen
    have := enc_length_le ct s
    rw [strictlySplitLoop_eq ct x hd hu _ r _ (by simp at hlen; omega)
      (fun c hc => hs c (dropWhile_subset _ s c (by rw [hdw]; simp [hc])))]
    simp

theorem words_dropWhile (s : List Nat) : words (s.dropWhile isAsciiWhiteSpace) = words s := by
  induction s with
  | nil => rfl
  | cons c s ih =>
    rw [List.dropWhile_cons]
    split
    · rename_i h; rw [ih, words_ws c s ((isWs_iff c).mp h)]
    · rfl

theorem words_split (c : Nat) (s : List Nat) (hc : ¬ IsWs c) :
    words (c :: s) = (c :: s).takeWhile (fun c => !isAsciiWhiteSpace c) ::
      words ((c :: s).dropWhile (fun c => !isAsciiWhiteSpace c)) := by
  have hp : (fun c : Nat => !isAsciiWhiteSpace c) = (fun c => !decide (IsWs c)) := by
    funext x; rw [isWs_decide]
  rw [hp]
  have h0 : words (c :: s) = (c :: s).takeWhile (fun c => !decide (IsWs c)) ::
      ((fields IsWs (c :: s)).tail.filter (· ≠ [])) := by
    rw [words_nonws c s hc, fields_eq IsWs s]
    simp only [List.headD_cons, List.tail_cons, List.takeWhile_cons, hc, decide_false, Bool.not_false, if_true]
    rw [fields_eq IsWs (c :: s)]
    simp [List.dropWhile_cons, hc]
  rw [h0, fields_eq IsWs (c :: s)]
  congr 1
  simp only [List.tail_cons]
  cases hdw : (c :: s).dropWhile (fun c => !decide (IsWs c)) with
  | nil => simp [words, fields]
  | cons x r =>
    have hx : IsWs x := by
      have := head_dropWhile (s := c :: s) (p := fun c => !decide (IsWs c)) (c := x) (by rw [hdw]; rfl)
      simpa using this
    rw [words_ws x r hx]; rfl

theorem splitWsLoop_eq (ct : CharT) (fuel : Nat) :
    ∀ (s : List Nat) (out : List (List Nat)), s.length ≤ fuel → (∀ c ∈ s, IsScalar c) →
      (∀ c, s.head? = some c → ¬ IsWs c) →
      splitWsLoop ct fuel (s.flatMap (encForm ct)) out = some (out ++ (words s).map (·.flatMap (encForm ct))) := by
  induction fuel with
  | zero =>
    intro s out hf _ _
    have : s = [] := by simpa using hf
    subst this; simp [splitWsLoop, words, fields]
  | succ fuel ih =>
    intro s out hf hs hh
    cases s with
    | nil => simp [splitWsLoop, words, fields]
    | cons c s =>
      have hc : ¬ IsWs c := hh c rfl
      rw [words_split c s hc]
      cases hE : (c :: s).flatMap (encForm ct) with
      | nil => have := enc_length_le ct (c :: s); rw [hE] at this; simp at this
      | cons u us =>
        rw [splitWsLoop, ← hE, collect_eq ct ct _ (c :: s) [] hs]
        have hs2 : ∀ x ∈ (c :: s).dropWhile (fun c => !isAsciiWhiteSpace c), IsScalar x :=
          fun x hx => hs x (dropWhile_subset _ _ x hx)
        simp only [List.nil_append, skip_eq ct _ hs2]
        rw [ih]
        · rw [words_dropWhile]; simp
        · have h1 := dropWhile_length_le isAsciiWhiteSpace ((c :: s).dropWhile (fun c => !isAsciiWhiteSpace c))
          have h2 : ((c :: s).dropWhile (fun c => !isAsciiWhiteSpace c)).length ≤ s.length := by
            have hb : isAsciiWhiteSpace c = false := by rw [← Bool.not_eq_true, isWs_iff]; exact hc
            rw [List.dropWhile_cons, hb]
            simpa using dropWhile_length_le _ s
          simp at hf; omega
        · exact fun x hx => hs2 x (dropWhile_subset _ _ x hx)
        · intro x hx
          rw [← isWs_iff, Bool.not_eq_true]
          exact head_dropWhile hx

theorem stripLeadingTrailing_eq (src dst : CharT) (s : List Nat) (hs : ∀ c ∈ s, IsScalar c)
    (h : s = [] ∨ ∃ c ∈ s, ¬ IsWs c) :
    ∃ t, IsTrim s t ∧ stripLeadingTrailing src dst (s.flatMap (encForm src)) = some (t.flatMap (encForm dst)) := by
  obtain ⟨t, ht, hle, hcut⟩ := strip_split s h
  refine ⟨t, ht, ?_⟩
  have hsub : ∀ c ∈ t, IsScalar c := by
    intro c hc
    obtain ⟨l, r, e, _⟩ := ht
    exact hs c (by rw [e]; simp [hc])
  rw [stripLeadingTrailing, loopCP_foldlM src _ _ _ hs, push_fold]
  simp only [List.nil_append, Option.bind_some, copyRange, hle, if_true, hcut]
  rw [foldlM_emit dst t [] hsub]; simp

theorem comma_unit (ct : CharT) : encForm ct 0x2C = [0x2C] := by cases ct <;> decide

theorem commaPieces_step (s : List Nat) (hs : s ≠ []) :
    commaPieces s = s.takeWhile (fun c => c != 44) ::
      (match s.dropWhile (fun c => c != 44) with
        | [] => []
        | _ :: r => commaPieces r) := by
  have hp : (fun cp : Nat => cp != 44) = (fun c => !decide (c = 44)) := by
    funext c; by_cases h : c = 44 <;> simp [h]
  rw [hp]
  unfold commaPieces
  rw [fields_eq (· = 44) s]
  cases hdw : s.dropWhile (fun c => !decide (c = 44)) with
  | nil =>
    have : s.takeWhile (fun c => !decide (c = 44)) = s := by
      have := List.takeWhile_append_dropWhile (p := fun c => !decide (c = 44)) (l := s)
      rw [hdw] at this; simpa using this
    simp [this, hs]
  | cons x r =>
    have := fields_ne_nil (· = 44) r
    simp only
    cases hf : fields (· = 44) r with
    | nil => contradiction
    | cons f fs =>
      rw [List.getLast?_cons_cons]
      split <;> simp

theorem splitCommasLoop_eq (ct : CharT) (fuel : Nat) :
    ∀ (s : List Nat) (out : List (List Nat)), s.length ≤ fuel → (∀ c ∈ s, IsScalar c) →
      (∀ f ∈ commaPieces s, f = [] ∨ ∃ c ∈ f, ¬ IsWs c) →
      ∃ ts, TrimAll (commaPieces s) ts ∧
        splitCommasLoop ct fuel (s.flatMap (encForm ct)) out = some (out ++ ts.map (·.flatMap (encForm ct))) := by
  induction fuel with
  | zero =>
    intro s out hf _ _
    have : s = [] := by simpa using hf
    subst this
    exact ⟨[], by simp [commaPieces, fields]; exact .nil, by simp [splitCommasLoop]⟩
  | succ fuel ih =>
    intro s out hf hs hpc
    by_cases hs0 : s = []
    · subst hs0
      exact ⟨[], by simp [commaPieces, fields]; exact .nil, by simp [splitCommasLoop]⟩
    · rw [commaPieces_step s hs0] at hpc ⊢
      have hsub : ∀ c ∈ s.takeWhile (fun c => c != 44), IsScalar c :=
        fun c hc => hs c ((List.takeWhile_sublist _).subset hc)
      obtain ⟨t, ht, hst⟩ := stripLeadingTrailing_eq ct ct _ hsub (hpc _ (by simp))
      cases hE : s.flatMap (encForm ct) with
      | nil =>
        have := enc_length_le ct s; rw [hE] at this
        have : s = [] := by simpa using this
        contradiction
      | cons u us =>
        rw [splitCommasLoop, ← hE, collect_eq ct ct _ s [] hs]
        simp only [List.nil_append, hst]
        cases hdw : s.dropWhile (fun c => c != 44) with
        | nil => exact ⟨[t], .cons ht .nil, by simp⟩
        | cons x r =>
          have hx : x = 44 := by
            have := head_dropWhile (s := s) (p := fun c => c != 44) (c := x) (by rw [hdw]; rfl)
            simpa using this
          subst hx
          rw [hdw] at hpc
          have hlen := dropWhile_length_le (fun c => c != 44) s
          rw [hdw] at hlen
          obtain ⟨ts, h1, h2⟩ := ih r (out ++ [t.flatMap (encForm ct)]) (by simp at hlen; omega)
            (fun c hc => hs c (dropWhile_subset _ s c (by rw [hdw]; simp [hc])))
            (fun f hfm => hpc f (by simp [hfm]))
          refine ⟨t :: ts, .cons ht h1, ?_⟩
          rw [List.flatMap_cons, comma_unit]
          simp only [List.cons_append, List.nil_append, ne_eq, not_true_eq_false, if_false, h2]
          simp

end Verif.Proof.Infra
