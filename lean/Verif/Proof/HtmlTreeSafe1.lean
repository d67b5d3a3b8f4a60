import Verif.Proof.HtmlTreeTerm
/- The shape of the stack of open elements, for C105: what the stack looks like in each insertion mode. -/
namespace Verif.Proof.HtmlTree.Safe
open Verif.Model.HtmlTree

/-- The names that have a place of their own in the stack. -/
def structural : List K := [.html, .head, .body, .frameset, .table, .caption, .colgroup, .tbody, .tfoot, .thead, .tr, .td, .th, .select,
  .template]

/-- Any other HTML element. -/
def Plain (e : Entry) : Prop := e.ns = .html ∧ e.tag.mem structural = false

/-- An HTML element of one of some names. -/
def Nm (e : Entry) (l : List K) : Prop := e.ns = .html ∧ ∃ k ∈ l, e.tag = .k k

theorem is_k {e : Entry} {k x : K} (h1 : e.ns = .html) (h2 : e.tag = .k k) : e.is x = (k == x) := by
  simp [Entry.is, h1, h2, Tag.is]

theorem isIn_k {e : Entry} {k : K} {l : List K} (h1 : e.ns = .html) (h2 : e.tag = .k k) : e.isIn l = l.contains k := by
  simp [Entry.isIn, h1, h2, Tag.mem]

theorem default_k {e : Entry} {k : K} (h1 : e.ns = .html) (h2 : e.tag = .k k) :
    defaultScope e = [K.applet, .caption, .html, .table, .td, .th, .marquee, .object, .template].contains k := by
  simp only [defaultScope, h1, h2, Tag.mem]

theorem special_k {e : Entry} {k : K} (h1 : e.ns = .html) (h2 : e.tag = .k k) : special e = specials.contains k := by
  simp only [special, h1, h2, Tag.mem]

/-- Tests for names that have places of their own fail for plain elements. -/
theorem plain_is {e : Entry} {x : K} (h : Plain e) (hx : x ∈ structural) : e.is x = false := by
  unfold Entry.is
  cases ht : e.tag with
  | other s => simp [Tag.is]
  | k t =>
    have := h.2
    rw [ht] at this
    simp only [Tag.mem, List.contains_eq_mem, decide_eq_false_iff_not] at this
    simp only [Tag.is, Bool.and_eq_false_iff]
    right
    rw [beq_eq_false_iff_ne]
    rintro rfl
    exact this hx

theorem plain_isIn {e : Entry} {l : List K} (h : Plain e) (hl : ∀ x ∈ l, x ∈ structural) : e.isIn l = false := by
  unfold Entry.isIn
  cases ht : e.tag with
  | other s => simp [Tag.mem]
  | k t =>
    have := h.2
    rw [ht] at this
    simp only [Tag.mem, List.contains_eq_mem, decide_eq_false_iff_not] at this
    simp only [Tag.mem, List.contains_eq_mem, Bool.and_eq_false_iff, decide_eq_false_iff_not]
    exact .inr fun hm => this (hl _ hm)

theorem not_plain {e : Entry} {l : List K} (h : Nm e l) (hl : ∀ x ∈ l, x ∈ structural) : ¬ Plain e := by
  rintro ⟨-, h2⟩
  obtain ⟨-, k, hk, ht⟩ := h
  rw [ht] at h2
  simp only [Tag.mem, List.contains_eq_mem, decide_eq_false_iff_not] at h2
  exact h2 (hl k hk)

/-- A name outside of the list. -/
theorem plain_of {e : Entry} (h1 : e.ns = .html) {k : K} (h2 : e.tag = .k k) (h3 : k ∉ structural) : Plain e :=
  ⟨h1, by rw [h2]; simpa [Tag.mem] using h3⟩

/-- What is around the content: the body, or a part of a table. -/
inductive Zone | body | table | sec | row | cell | caption | group
deriving DecidableEq

/-- Where tables may be. -/
def flows : List Zone := [.body, .cell, .caption]

/-- The stack down from the element of the zone. -/
inductive Base : Zone → List Entry → Prop
  | body {b h : Entry} : Nm b [.body] → Nm h [.html] → Base .body [b, h]
  | table {e : Entry} {z : Zone} {pre l : List Entry} : Nm e [.table] → z ∈ flows → (∀ x ∈ pre, Plain x) → Base z l →
      Base .table (e :: (pre ++ l))
  | sec {e : Entry} {l : List Entry} : Nm e [.tbody, .tfoot, .thead] → Base .table l → Base .sec (e :: l)
  | row {e : Entry} {l : List Entry} : Nm e [.tr] → Base .sec l → Base .row (e :: l)
  | cell {e : Entry} {l : List Entry} : Nm e [.td, .th] → Base .row l → Base .cell (e :: l)
  | caption {e : Entry} {l : List Entry} : Nm e [.caption] → Base .table l → Base .caption (e :: l)
  | group {e : Entry} {l : List Entry} : Nm e [.colgroup] → Base .table l → Base .group (e :: l)

/-- The stack in a zone. -/
def Sh (z : Zone) (st : List Entry) : Prop := ∃ pre base, st = pre ++ base ∧ (∀ x ∈ pre, Plain x) ∧ Base z base

theorem Base.sh {z : Zone} {l : List Entry} (h : Base z l) : Sh z l := ⟨[], l, rfl, by simp, h⟩

theorem Sh.push {z : Zone} {e : Entry} {st : List Entry} (he : Plain e) (h : Sh z st) : Sh z (e :: st) := by
  obtain ⟨pre, base, rfl, h1, h2⟩ := h
  exact ⟨e :: pre, base, rfl, by simpa using ⟨he, h1⟩, h2⟩

theorem Sh.pushes {z : Zone} {st : List Entry} (h : Sh z st) : ∀ {l : List Entry}, (∀ x ∈ l, Plain x) → Sh z (l ++ st)
  | [], _ => h
  | e :: l, hl => (Sh.pushes h fun x hx => hl x (by simp [hx])).push (hl e (by simp))

theorem Sh.table {z : Zone} {e : Entry} {st : List Entry} (he : Nm e [.table]) (hz : z ∈ flows) (h : Sh z st) : Base .table (e :: st) := by
  obtain ⟨pre, base, rfl, h1, h2⟩ := h
  exact .table he hz h1 h2

/-- The lowest element is `html`. -/
def Rooted (st : List Entry) : Prop := ∃ l e, st = l ++ [e] ∧ Nm e [.html]

theorem Rooted.cons {st : List Entry} (h : Rooted st) (e : Entry) : Rooted (e :: st) := by
  obtain ⟨l, x, rfl, hx⟩ := h
  exact ⟨e :: l, x, rfl, hx⟩

theorem Rooted.append {st : List Entry} (h : Rooted st) (l : List Entry) : Rooted (l ++ st) := by
  obtain ⟨m, x, rfl, hx⟩ := h
  exact ⟨l ++ m, x, by simp, hx⟩

theorem Base.rooted {z : Zone} {l : List Entry} (h : Base z l) : Rooted l := by
  induction h with
  | body h1 h2 => exact ⟨[_], _, rfl, h2⟩
  | table h1 h2 h3 h4 ih => exact (ih.append _).cons _
  | _ => rename_i ih; exact ih.cons _

theorem Sh.rooted {z : Zone} {st : List Entry} (h : Sh z st) : Rooted st := by
  obtain ⟨pre, base, rfl, h1, h2⟩ := h
  exact h2.rooted.append _

theorem Rooted.ne {st : List Entry} (h : Rooted st) : st ≠ [] := by
  obtain ⟨l, e, rfl, -⟩ := h
  simp

/-- No element of a zone is plain, down to the element that ends the scope: a scope ends there. -/
theorem scope_base {sc p : Entry → Bool} (hsc : ∀ e, defaultScope e = true → sc e = true) {z : Zone} {l : List Entry} (h : Base z l)
    (hp : ∀ x ∈ l, p x = true → Plain x) : inScope sc p l = .ok false := by
  have no : ∀ e (ks : List K), e ∈ l → Nm e ks → (∀ x ∈ ks, x ∈ structural) → p e = false := by
    intro e ks he hn hk
    by_contra hc
    exact not_plain hn hk (hp e he (by simpa using hc))
  have end' : ∀ e (r : List Entry) (ks : List K), e ∈ l → Nm e ks → (∀ x ∈ ks, x ∈ structural) →
      (∀ x ∈ ks, x ∈ [K.applet, .caption, .html, .table, .td, .th, .marquee, .object, .template]) → inScope sc p (e :: r) = .ok false := by
    intro e r ks he hn hk hd
    unfold inScope
    rw [no e ks he hn hk]
    have : sc e = true := hsc e (by
      obtain ⟨h1, k, hkk, h2⟩ := hn
      rw [default_k h1 h2]; simpa using hd k hkk)
    simp [this]
  have skip : ∀ e (r : List Entry) (ks : List K), e ∈ l → Nm e ks → (∀ x ∈ ks, x ∈ structural) → inScope sc p r = .ok false →
      inScope sc p (e :: r) = .ok false := by
    intro e r ks he hn hk hr
    unfold inScope
    rw [no e ks he hn hk]
    by_cases hs : sc e = true <;> simp [hs, hr]
  have tab : ∀ r, (∀ x ∈ r, x ∈ l) → Base .table r → inScope sc p r = .ok false := by
    intro r hr hb
    cases hb with
    | table h1 => exact end' _ _ _ (hr _ (by simp)) h1 (by decide) (by decide)
  have se : ∀ r, (∀ x ∈ r, x ∈ l) → Base .sec r → inScope sc p r = .ok false := by
    intro r hr hb
    cases hb with
    | sec h1 h2 => exact skip _ _ _ (hr _ (by simp)) h1 (by decide) (tab _ (fun x hx => hr x (by simp [hx])) h2)
  cases h with
  | body h1 h2 => exact skip _ _ _ (by simp) h1 (by decide) (end' _ _ _ (by simp) h2 (by decide) (by decide))
  | table h1 h2 h3 h4 => exact end' _ _ _ (by simp) h1 (by decide) (by decide)
  | sec h1 h2 => exact skip _ _ _ (by simp) h1 (by decide) (tab _ (fun x hx => by simp [hx]) h2)
  | row h1 h2 => exact skip _ _ _ (by simp) h1 (by decide) (se _ (fun x hx => by simp [hx]) h2)
  | cell h1 h2 => exact end' _ _ _ (by simp) h1 (by decide) (by decide)
  | caption h1 h2 => exact end' _ _ _ (by simp) h1 (by decide) (by decide)
  | group h1 h2 => exact skip _ _ _ (by simp) h1 (by decide) (tab _ (fun x hx => by simp [hx]) h2)

/-- A plain element that is looked for, with what is below it. -/
def Hit (p : Entry → Bool) (z : Zone) (st : List Entry) : Prop :=
  ∃ a x b, st = a ++ x :: b ∧ (∀ y ∈ a, p y = false ∧ Plain y) ∧ p x = true ∧ Plain x ∧ Sh z b

theorem Hit.cons {p : Entry → Bool} {z : Zone} {st : List Entry} {e : Entry} (he : p e = false) (hp : Plain e) (h : Hit p z st) :
    Hit p z (e :: st) := by
  obtain ⟨a, x, b, rfl, h1, h2⟩ := h
  exact ⟨e :: a, x, b, rfl, by simpa using ⟨⟨he, hp⟩, h1⟩, h2⟩

theorem scope_sh {sc p : Entry → Bool} (hsc : ∀ e, defaultScope e = true → sc e = true) {z : Zone} {st : List Entry} (h : Sh z st)
    (hp : ∀ x ∈ st, p x = true → Plain x) : inScope sc p st = .ok false ∨ (inScope sc p st = .ok true ∧ Hit p z st) := by
  obtain ⟨pre, base, rfl, h1, h2⟩ := h
  induction pre with
  | nil => exact .inl (scope_base hsc h2 hp)
  | cons e pre ih =>
    simp only [List.cons_append]
    unfold inScope
    by_cases he : p e = true
    · refine .inr ⟨by simp [he], [], e, pre ++ base, rfl, by simp, he, h1 e (by simp), pre, base, rfl, fun x hx => h1 x (by simp [hx]), h2⟩
    · have he' : p e = false := by simpa using he
      by_cases hs : sc e = true
      · exact .inl (by simp [he', hs])
      · rcases ih (fun x hx => hp x (by simp only [List.cons_append, List.mem_cons]; exact .inr hx)) (fun x hx => h1 x (by simp [hx])) with h | ⟨h, h'⟩
        · exact .inl (by simpa [he', hs] using h)
        · exact .inr ⟨by simpa [he', hs] using h, h'.cons he' (h1 e (by simp))⟩

theorem sc_default : ∀ e, defaultScope e = true → defaultScope e = true := fun _ h => h
theorem sc_list : ∀ e, defaultScope e = true → listScope e = true := fun e h => by simp [listScope, h]
theorem sc_button : ∀ e, defaultScope e = true → buttonScope e = true := fun e h => by simp [buttonScope, h]

theorem popUntil_hit {p : Entry → Bool} {z : Zone} {st : List Entry} (h : Hit p z st) : Sh z (popUntil p st) := by
  obtain ⟨a, x, b, rfl, h1, h2, -, h3⟩ := h
  induction a with
  | nil => simpa [popUntil, h2] using h3
  | cons e a ih =>
    simp only [List.cons_append]
    unfold popUntil
    rw [(h1 e (by simp)).1]
    simpa using ih fun y hy => h1 y (by simp [hy])

/-- The names whose end tags are implied. -/
def impliedK : List K := [.dd, .dt, .li, .optgroup, .option, .p, .rb, .rp, .rt, .rtc]

theorem implied_hit {p keep : Entry → Bool} {z : Zone} {st : List Entry} (h : Hit p z st)
    (hk : ∀ x ∈ st, p x = true → Plain x → keep x = true ∨ x.isIn impliedK = false) : Hit p z (implied keep st) := by
  obtain ⟨a, x, b, rfl, h1, h2, h3, h4⟩ := h
  induction a with
  | nil =>
    simp only [List.nil_append]
    unfold implied
    have : ∃ r, r = x :: b ∧ Hit p z r := ⟨_, rfl, [], x, b, rfl, by simp, h2, h3, h4⟩
    obtain ⟨r, hr, hh⟩ := this
    rcases hk x (by simp) h2 h3 with hk | hk
    · simpa [hk, ← hr] using hh
    · unfold impliedK at hk
      by_cases hq : keep x = true
      · simpa [hq, ← hr] using hh
      · simpa [hq, hk, ← hr] using hh
  | cons e a ih =>
    simp only [List.cons_append]
    unfold implied
    have hh : Hit p z (e :: (a ++ x :: b)) := ⟨e :: a, x, b, rfl, h1, h2, h3, h4⟩
    by_cases hq : keep e = true
    · simpa [hq] using hh
    · have := ih (fun y hy => hk y (List.mem_cons_of_mem _ hy)) fun y hy => h1 y (by simp [hy])
      simp only [hq, Bool.false_eq_true, if_false]
      split
      · exact this
      · exact hh

theorem base_head {z : Zone} {l : List Entry} (h : Base z l) : ∃ e r ks, l = e :: r ∧ Nm e ks ∧ (∀ x ∈ ks, x ∈ structural) := by
  cases h with
  | body h1 h2 => exact ⟨_, _, _, rfl, h1, by decide⟩
  | table h1 => exact ⟨_, _, _, rfl, h1, by decide⟩
  | sec h1 => exact ⟨_, _, _, rfl, h1, by decide⟩
  | row h1 => exact ⟨_, _, _, rfl, h1, by decide⟩
  | cell h1 => exact ⟨_, _, _, rfl, h1, by decide⟩
  | caption h1 => exact ⟨_, _, _, rfl, h1, by decide⟩
  | group h1 => exact ⟨_, _, _, rfl, h1, by decide⟩

theorem nm_not {e : Entry} {ks l : List K} (h : Nm e ks) (hd : ∀ x ∈ ks, x ∉ l) : e.isIn l = false := by
  obtain ⟨h1, k, hk, h2⟩ := h
  rw [isIn_k h1 h2]
  simpa using hd k hk

theorem implied_stop {keep : Entry → Bool} {e : Entry} {r : List Entry} (h : e.isIn impliedK = false) : implied keep (e :: r) = e :: r := by
  unfold impliedK at h
  unfold implied
  simp [h]

theorem Sh.implied {keep : Entry → Bool} {z : Zone} {st : List Entry} (h : Sh z st) : Sh z (Verif.Model.HtmlTree.implied keep st) := by
  obtain ⟨pre, base, rfl, h1, h2⟩ := h
  induction pre with
  | nil =>
    obtain ⟨e, r, ks, rfl, h3, h4⟩ := base_head h2
    rw [List.nil_append, implied_stop (nm_not h3 fun x hx hm => by
      have := h4 x hx
      revert this hm
      cases x <;> decide)]
    exact h2.sh
  | cons e pre ih =>
    simp only [List.cons_append]
    have hs : Sh z (e :: (pre ++ base)) := ⟨e :: pre, base, rfl, h1, h2⟩
    have := ih fun x hx => h1 x (by simp [hx])
    unfold Verif.Model.HtmlTree.implied
    split
    · exact hs
    · split
      · exact this
      · exact hs

theorem implied_suffix (keep : Entry → Bool) : ∀ st, implied keep st <:+ st
  | [] => by simp [implied]
  | e :: l => by
    unfold implied
    split
    · exact List.suffix_rfl
    · split
      · exact (implied_suffix keep l).trans (List.suffix_cons _ _)
      · exact List.suffix_rfl

theorem popUntil_suffix (p : Entry → Bool) : ∀ st, popUntil p st <:+ st
  | [] => by simp [popUntil]
  | e :: l => by
    unfold popUntil
    split
    · exact List.suffix_cons _ _
    · exact (popUntil_suffix p l).trans (List.suffix_cons _ _)

/-- Taking away a plain element keeps the shape. -/
theorem Base.erase {p : Entry → Bool} {z : Zone} {l : List Entry} (h : Base z l) (hp : ∀ x ∈ l, p x = true → Plain x) : Base z (l.eraseP p) := by
  have no : ∀ {e : Entry} {ks : List K}, e ∈ l → Nm e ks → (∀ x ∈ ks, x ∈ structural) → ¬ p e = true :=
    fun he hn hk hc => not_plain hn hk (hp _ he hc)
  induction h with
  | body h1 h2 =>
    rw [List.eraseP_cons_of_neg (no (by simp) h1 (by decide)), List.eraseP_cons_of_neg (no (by simp) h2 (by decide))]
    exact .body h1 h2
  | table h1 h2 h3 h4 ih =>
    rw [List.eraseP_cons_of_neg (no (by simp) h1 (by decide)), List.eraseP_append]
    split
    · exact .table h1 h2 (fun x hx => h3 x (List.mem_of_mem_eraseP hx)) h4
    · exact .table h1 h2 h3 (ih (fun x hx => hp x (by simp [hx])) (fun he => no (by simp [he])))
  | sec h1 h2 ih =>
    rw [List.eraseP_cons_of_neg (no (by simp) h1 (by decide))]
    exact .sec h1 (ih (fun x hx => hp x (by simp [hx])) (fun he => no (by simp [he])))
  | row h1 h2 ih =>
    rw [List.eraseP_cons_of_neg (no (by simp) h1 (by decide))]
    exact .row h1 (ih (fun x hx => hp x (by simp [hx])) (fun he => no (by simp [he])))
  | cell h1 h2 ih =>
    rw [List.eraseP_cons_of_neg (no (by simp) h1 (by decide))]
    exact .cell h1 (ih (fun x hx => hp x (by simp [hx])) (fun he => no (by simp [he])))
  | caption h1 h2 ih =>
    rw [List.eraseP_cons_of_neg (no (by simp) h1 (by decide))]
    exact .caption h1 (ih (fun x hx => hp x (by simp [hx])) (fun he => no (by simp [he])))
  | group h1 h2 ih =>
    rw [List.eraseP_cons_of_neg (no (by simp) h1 (by decide))]
    exact .group h1 (ih (fun x hx => hp x (by simp [hx])) (fun he => no (by simp [he])))

theorem Sh.erase {p : Entry → Bool} {z : Zone} {st : List Entry} (h : Sh z st) (hp : ∀ x ∈ st, p x = true → Plain x) : Sh z (st.eraseP p) := by
  obtain ⟨pre, base, rfl, h1, h2⟩ := h
  rw [List.eraseP_append]
  split
  · exact ⟨_, _, rfl, fun x hx => h1 x (List.mem_of_mem_eraseP hx), h2⟩
  · exact ⟨_, _, rfl, h1, h2.erase fun x hx => hp x (by simp [hx])⟩

/-- The mode of a zone. -/
def Zone.mode : Zone → Mode
  | .body => .inBody
  | .table => .inTable
  | .sec => .inTableBody
  | .row => .inRow
  | .cell => .inCell
  | .caption => .inCaption
  | .group => .inColumnGroup

theorem reset_base {z : Zone} {l : List Entry} (h : Base z l) (hd : Option Nat) : resetMode hd [] l = .ok z.mode := by
  have ne : ∀ {z l}, Base z l → l ≠ [] := fun h => h.rooted.ne
  cases h with
  | body h1 h2 =>
    obtain ⟨h1, k, hk, h3⟩ := h1
    simp only [List.mem_singleton] at hk; subst hk
    unfold resetMode
    simp [is_k h1 h3, isIn_k h1 h3, Zone.mode]
  | table h1 h2 h3 h4 =>
    obtain ⟨h1, k, hk, h3⟩ := h1
    simp only [List.mem_singleton] at hk; subst hk
    unfold resetMode
    simp [is_k h1 h3, isIn_k h1 h3, Zone.mode]
  | sec h1 h2 =>
    obtain ⟨h1, k, hk, h3⟩ := h1
    unfold resetMode
    simp only [List.mem_cons, List.not_mem_nil, or_false] at hk
    rcases hk with rfl | rfl | rfl <;> simp [is_k h1 h3, isIn_k h1 h3, Zone.mode]
  | row h1 h2 =>
    obtain ⟨h1, k, hk, h3⟩ := h1
    simp only [List.mem_singleton] at hk; subst hk
    unfold resetMode
    simp [is_k h1 h3, isIn_k h1 h3, Zone.mode]
  | cell h1 h2 =>
    obtain ⟨h1, k, hk, h3⟩ := h1
    unfold resetMode
    have := ne h2
    simp only [List.mem_cons, List.not_mem_nil, or_false] at hk
    rcases hk with rfl | rfl <;> simp [is_k h1 h3, isIn_k h1 h3, Zone.mode, this]
  | caption h1 h2 =>
    obtain ⟨h1, k, hk, h3⟩ := h1
    simp only [List.mem_singleton] at hk; subst hk
    unfold resetMode
    simp [is_k h1 h3, isIn_k h1 h3, Zone.mode]
  | group h1 h2 =>
    obtain ⟨h1, k, hk, h3⟩ := h1
    simp only [List.mem_singleton] at hk; subst hk
    unfold resetMode
    simp [is_k h1 h3, isIn_k h1 h3, Zone.mode]

theorem reset_sh {z : Zone} {st : List Entry} (h : Sh z st) (hd : Option Nat) : resetMode hd [] st = .ok z.mode := by
  obtain ⟨pre, base, rfl, h1, h2⟩ := h
  induction pre with
  | nil => exact reset_base h2 hd
  | cons e pre ih =>
    have hp := h1 e (by simp)
    have hne : pre ++ base ≠ [] := by
      have := h2.rooted.ne
      simp [this]
    simp only [List.cons_append]
    unfold resetMode
    rw [plain_is hp (x := .select) (by decide), plain_isIn hp (l := [.td, .th]) (by decide), plain_is hp (x := .tr) (by decide),
      plain_isIn hp (l := [.tbody, .thead, .tfoot]) (by decide), plain_is hp (x := .caption) (by decide), plain_is hp (x := .colgroup) (by decide),
      plain_is hp (x := .table) (by decide), plain_is hp (x := .template) (by decide), plain_is hp (x := .head) (by decide),
      plain_is hp (x := .body) (by decide), plain_is hp (x := .frameset) (by decide), plain_is hp (x := .html) (by decide)]
    simp only [Bool.false_eq_true, Bool.false_and, if_false, if_neg hne]
    exact ih fun x hx => h1 x (by simp [hx])

end Verif.Proof.HtmlTree.Safe
