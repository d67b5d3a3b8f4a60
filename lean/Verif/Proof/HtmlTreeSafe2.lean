import Verif.Proof.HtmlTreeSafe1
import Verif.Proof.HtmlTreeTops
/- Inserting never fails, for C105: what is kept about nodes. -/
namespace Verif.Proof.HtmlTree.Safe
open Verif.Model.HtmlTree
open Verif.Proof.HtmlTree.Forest (Kept Wf Deep Elem tagAt els Has)

/-- Failures that are not excluded; `q` says that there may be formatting elements. -/
def Left (q : Prop) (e : Fail) : Prop := e = .fuel ∨ (q ∧ (e = .stale ∨ e = .badMove))

/-- A result with a property, or one of the failures that are not excluded. -/
def Sat (q : Prop) {α : Type} (P : α → Prop) : R α → Prop
  | .ok a => P a
  | .error e => Left q e

theorem Sat.bind {q : Prop} {α β : Type} {Q : α → Prop} {P : β → Prop} {x : R α} {f : α → R β} (hx : Sat q Q x) (hf : ∀ a, Q a → Sat q P (f a)) :
    Sat q P (x >>= f) := by
  cases x with
  | error e => exact hx
  | ok a => exact hf a hx

theorem Sat.mono {q : Prop} {α : Type} {P Q : α → Prop} {x : R α} (h : Sat q P x) (hi : ∀ a, P a → Q a) : Sat q Q x := by
  cases x with
  | error e => exact h
  | ok a => exact hi a h

theorem Sat.ite {q : Prop} {α : Type} {P : α → Prop} {c : Prop} [Decidable c] {a b : R α} (ha : c → Sat q P a) (hb : ¬ c → Sat q P b) :
    Sat q P (if c then a else b) := by
  by_cases h : c
  · rw [if_pos h]; exact ha h
  · rw [if_neg h]; exact hb h

theorem bind_ok {α β : Type} (a : α) (f : α → R β) : ((.ok a : R α) >>= f) = f a := rfl

theorem Sat.of_eq {q : Prop} {α : Type} {P : α → Prop} {x : R α} {a : α} (h : x = .ok a) (hp : P a) : Sat q P x := by rw [h]; exact hp

/-- The tree has only grown, and not at the top. -/
def Up (d d' : Dom) : Prop := d.length ≤ d'.length ∧ (∀ y, parentOf d y ≠ none → parentOf d' y ≠ none) ∧ Kept d d'

theorem Up.refl (d : Dom) : Up d d := ⟨Nat.le_refl _, fun _ h => h, Kept.refl d⟩

theorem Up.trans {a b c : Dom} (h1 : Up a b) (h2 : Up b c) : Up a c :=
  ⟨Nat.le_trans h1.1 h2.1, fun y h => h2.2.1 y (h1.2.1 y h), h1.2.2.trans h2.2.2⟩

/-- The names of the elements in the root. -/
def topK : List K := [.head, .body, .frameset]

/-- What is in the root while such an element is open. -/
def stageOf : Tag → Option (List K)
  | .k .head => some [.head]
  | .k .body => some [.head, .body]
  | .k .frameset => some [.head, .frameset]
  | _ => none

/-- The root has only elements of these names. -/
def Tame (d : Dom) : Prop := ∀ r ∈ els d 0, ∀ x ∈ els d r, ∃ k ∈ topK, tagAt d x = some (.html, .k k)

theorem Tame.kept {d d' : Dom} (h : Tame d) (w : Wf d) (u : Kept d d') : Tame d' := by
  intro r hr x hx
  rw [u.root w] at hr
  rw [u.tops w r hr] at hx
  obtain ⟨k, hk, hx⟩ := h r hr x hx
  exact ⟨k, hk, u.tags _ _ hx⟩

theorem Has.tame {d : Dom} {l : List K} (h : Has d l) (hl : ∀ k ∈ l, k ∈ topK) : Tame d := by
  obtain ⟨r, h1, h2, h3⟩ := h
  intro r' hr x hx
  rw [h1] at hr
  cases List.mem_singleton.mp hr
  have : tagAt d x ∈ (els d r).map (tagAt d) := List.mem_map_of_mem hx
  rw [h3] at this
  obtain ⟨k, hk, hx⟩ := List.mem_map.mp this
  exact ⟨k, hl k hk, hx.symm⟩

/-- Elements that may be put into the root's elements. -/
def Ins (d : Dom) (t : Tag) : Prop := t ≠ .k .template ∧ t ≠ .k .html ∧ (∀ l, stageOf t = some l → Has d l) ∧ (t = .k .table → Tame d)

theorem Ins.of {d : Dom} {t : Tag} (h : t.mem [.template, .html, .head, .body, .frameset, .table] = false) : Ins d t := by
  refine ⟨?_, ?_, fun l hl => ?_, ?_⟩
  · rintro rfl; revert h; decide
  · rintro rfl; revert h; decide
  · unfold stageOf at hl
    split at hl <;> first | exact absurd h (by decide) | cases hl
  · rintro rfl; exact absurd h (by decide)

theorem Ins.k {d : Dom} {k : K} (h : k ∉ [K.template, .html, .head, .body, .frameset, .table]) : Ins d (.k k) := Ins.of (by simpa [Tag.mem] using h)

/-- What is kept about the top of the tree. -/
structure Tops (dom : Dom) (stack : List Entry) (head : Option Nat) : Prop where
  wf : Wf dom
  tags : ∀ e ∈ stack, tagAt dom e.node = some (e.ns, e.tag)
  bots : ∀ e ∈ stack, e.tag = .k .html → e.node ∈ els dom 0
  root : ∀ r ∈ els dom 0, tagAt dom r = some (.html, .k .html)
  hdt : ∀ n, head = some n → tagAt dom n = some (.html, .k .head)
  stage : ∀ e ∈ stack, ∀ l, stageOf e.tag = some l → Has dom l
  tame : ∀ e ∈ stack, e.tag = .k .table → Tame dom

theorem Tops.up {d dom : Dom} {stack : List Entry} {head : Option Nat} (h : Tops dom stack head) (u : Kept dom d) : Tops d stack head where
  wf := u.wf h.wf
  tags e he := u.tags _ _ (h.tags e he)
  bots e he ht := by rw [u.root h.wf]; exact h.bots e he ht
  root r hr := by
    rw [u.root h.wf] at hr
    exact u.tags _ _ (h.root r hr)
  hdt n hn := u.tags _ _ (h.hdt n hn)
  stage e he l hl := (h.stage e he l hl).kept h.wf u
  tame e he ht := (h.tame e he ht).kept h.wf u

theorem Tops.sub {dom : Dom} {stack st : List Entry} {head : Option Nat} (h : Tops dom stack head) (hs : ∀ e ∈ st, e ∈ stack) : Tops dom st head :=
  { h with tags := fun e he => h.tags e (hs e he), bots := fun e he => h.bots e (hs e he), stage := fun e he => h.stage e (hs e he), tame := fun e he => h.tame e (hs e he) }

theorem Tops.cons {dom : Dom} {stack : List Entry} {head : Option Nat} {e : Entry} (h : Tops dom stack head)
    (ht : tagAt dom e.node = some (e.ns, e.tag)) (hb : e.tag = .k .html → e.node ∈ els dom 0)
    (hl : ∀ l, stageOf e.tag = some l → Has dom l) (htm : e.tag = .k .table → Tame dom) : Tops dom (e :: stack) head :=
  { h with
    tags := fun x hx => by
      rcases List.mem_cons.mp hx with rfl | hx
      · exact ht
      · exact h.tags x hx
    bots := fun x hx => by
      rcases List.mem_cons.mp hx with rfl | hx
      · exact hb
      · exact h.bots x hx
    stage := fun x hx => by
      rcases List.mem_cons.mp hx with rfl | hx
      · exact hl
      · exact h.stage x hx
    tame := fun x hx => by
      rcases List.mem_cons.mp hx with rfl | hx
      · exact htm
      · exact h.tame x hx }

theorem Tops.deep {dom : Dom} {stack : List Entry} {head : Option Nat} {x : Nat} {v : Ns × Tag} (h : Tops dom stack head) (hx : tagAt dom x = some v)
    (hv : v.2 ≠ .k .html) : Deep dom x := by
  refine ⟨fun h0 => ?_, fun hr => ?_⟩
  · subst h0
    unfold tagAt at hx
    rw [h.wf.doc] at hx
    cases hx
  · rw [h.root x hr] at hx
    cases hx
    exact hv rfl

/-- What is not an element of the top is not at the top. -/
theorem Tops.inner {dom : Dom} {stack : List Entry} {head : Option Nat} {x : Nat} {v : Ns × Tag} (h : Tops dom stack head) (hm : Tame dom) (hx : tagAt dom x = some v)
    (hv : v.2.mem (.html :: topK) = false) : ∀ p, parentOf dom x = some p → Deep dom p := by
  have mem : ∀ p, parentOf dom x = some p → x ∈ els dom p := fun p hp =>
    List.mem_filter.mpr ⟨(h.wf.kid _ _).mpr hp, by rw [hx]; rfl⟩
  intro p hp
  refine ⟨fun h0 => ?_, fun hr => ?_⟩
  · subst h0
    rw [h.root x (mem 0 hp)] at hx
    cases hx
    cases hv
  · obtain ⟨k, hk, hx'⟩ := hm p hr x (mem p hp)
    rw [hx'] at hx
    cases hx
    have : Tag.mem (.k k) (.html :: topK) = true := by
      simp only [Tag.mem, List.contains_eq_mem, decide_eq_true_eq]
      exact List.mem_cons_of_mem _ hk
    rw [this] at hv
    cases hv

/-- What is kept about the nodes. -/
structure CoreOf (q : Prop) (dom : Dom) (stack : List Entry) (fmt : List Fmt) (form head : Option Nat) (tmpl : List Mode) : Prop where
  names : ∀ e ∈ stack, e.ns = .html ∧ e.tag ≠ .k .template
  tables : ∀ e ∈ stack, e.tag = .k .table → parentOf dom e.node ≠ none
  nodup : (stack.map Entry.node).Nodup
  small : ∀ e ∈ stack, e.node < dom.length
  fmts : ∀ e, Fmt.el e ∈ fmt → e.node < dom.length ∧ e.tag.mem structural = false ∧ ∀ x ∈ stack, x.node = e.node → x.tag.mem structural = false
  forms : ∀ n, form = some n → n < dom.length ∧ ∀ x ∈ stack, x.node = n → x.tag = .k .form
  heads : ∀ n, head = some n → n < dom.length ∧ ∀ x ∈ stack, x.node = n → x.tag = .k .head
  tmpls : tmpl = []
  apart : ∀ n, form = some n → head ≠ some n
  quiet : ¬ q → ∀ e, Fmt.el e ∉ fmt
  tops : Tops dom stack head

def Core (q : Prop) (s : S) : Prop := CoreOf q s.dom s.stack s.fmt s.form s.head s.tmpl

variable {q : Prop} {dom : Dom} {stack : List Entry} {fmt : List Fmt} {form head : Option Nat} {tmpl : List Mode} {s : S}

theorem CoreOf.up {d : Dom} (h : CoreOf q dom stack fmt form head tmpl) (hd : Up dom d) : CoreOf q d stack fmt form head tmpl where
  names := h.names
  tables e he ht := hd.2.1 _ (h.tables e he ht)
  nodup := h.nodup
  small e he := Nat.lt_of_lt_of_le (h.small e he) hd.1
  fmts e he := ⟨Nat.lt_of_lt_of_le (h.fmts e he).1 hd.1, (h.fmts e he).2⟩
  forms n hn := ⟨Nat.lt_of_lt_of_le (h.forms n hn).1 hd.1, (h.forms n hn).2⟩
  heads n hn := ⟨Nat.lt_of_lt_of_le (h.heads n hn).1 hd.1, (h.heads n hn).2⟩
  tmpls := h.tmpls
  apart := h.apart
  quiet := h.quiet
  tops := h.tops.up hd.2.2

theorem CoreOf.sub {st : List Entry} (h : CoreOf q dom stack fmt form head tmpl) (hs : List.Sublist st stack) : CoreOf q dom st fmt form head tmpl where
  names e he := h.names e (hs.subset he)
  tables e he := h.tables e (hs.subset he)
  nodup := h.nodup.sublist (hs.map _)
  small e he := h.small e (hs.subset he)
  fmts e he := ⟨(h.fmts e he).1, (h.fmts e he).2.1, fun x hx => (h.fmts e he).2.2 x (hs.subset hx)⟩
  forms n hn := ⟨(h.forms n hn).1, fun x hx => (h.forms n hn).2 x (hs.subset hx)⟩
  heads n hn := ⟨(h.heads n hn).1, fun x hx => (h.heads n hn).2 x (hs.subset hx)⟩
  tmpls := h.tmpls
  apart := h.apart
  quiet := h.quiet
  tops := h.tops.sub fun _ he => hs.subset he

theorem CoreOf.fmt' {f : List Fmt} (h : CoreOf q dom stack fmt form head tmpl) (hs : ∀ e, Fmt.el e ∈ f → Fmt.el e ∈ fmt) :
    CoreOf q dom stack f form head tmpl := { h with fmts := fun e he => h.fmts e (hs e he), quiet := fun hq e he => h.quiet hq e (hs e he) }

theorem CoreOf.form' {n : Option Nat} (h : CoreOf q dom stack fmt form head tmpl)
    (hs : ∀ x, n = some x → x < dom.length ∧ ∀ e ∈ stack, e.node = x → e.tag = .k .form) (ha : ∀ x, n = some x → head ≠ some x) :
    CoreOf q dom stack fmt n head tmpl := { h with forms := hs, apart := ha }

theorem CoreOf.head' {n : Option Nat} (h : CoreOf q dom stack fmt form head tmpl)
    (hs : ∀ x, n = some x → x < dom.length ∧ ∀ e ∈ stack, e.node = x → e.tag = .k .head) (ha : ∀ x, form = some x → n ≠ some x)
    (ht : ∀ x, n = some x → tagAt dom x = some (.html, .k .head)) :
    CoreOf q dom stack fmt form n tmpl := { h with heads := hs, apart := ha, tops := { h.tops with hdt := ht } }

/-- A new node is pushed. -/
theorem CoreOf.push' {d : Dom} {e : Entry} (h : CoreOf q dom stack fmt form head tmpl) (hd : ∀ y, parentOf dom y ≠ none → parentOf d y ≠ none)
    (hn : e.node = dom.length) (hl : dom.length < d.length) (hs : e.ns = .html) (ht : e.tag ≠ .k .template)
    (hp : e.tag = .k .table → parentOf d e.node ≠ none) (htop : Tops d (e :: stack) head) : CoreOf q d (e :: stack) fmt form head tmpl := by
  have fresh : ∀ x ∈ stack, x.node ≠ e.node := fun x hx => by have := h.small x hx; omega
  refine ⟨?_, ?_, ?_, ?_, ?_, ?_, ?_, h.tmpls, h.apart, h.quiet, htop⟩
  · intro x hx
    rcases List.mem_cons.mp hx with rfl | hx
    · exact ⟨hs, ht⟩
    · exact h.names x hx
  · intro x hx hxt
    rcases List.mem_cons.mp hx with rfl | hx
    · exact hp hxt
    · exact hd _ (h.tables x hx hxt)
  · rw [List.map_cons, List.nodup_cons]
    refine ⟨?_, h.nodup⟩
    intro hm
    obtain ⟨x, hx, hxe⟩ := List.mem_map.mp hm
    exact fresh x hx hxe
  · intro x hx
    rcases List.mem_cons.mp hx with rfl | hx
    · omega
    · exact Nat.lt_trans (h.small x hx) hl
  · intro f hf
    refine ⟨Nat.lt_trans (h.fmts f hf).1 hl, (h.fmts f hf).2.1, ?_⟩
    intro x hx hxe
    rcases List.mem_cons.mp hx with rfl | hx
    · have := (h.fmts f hf).1; omega
    · exact (h.fmts f hf).2.2 x hx hxe
  · intro n hn'
    refine ⟨Nat.lt_trans (h.forms n hn').1 hl, ?_⟩
    intro x hx hxe
    rcases List.mem_cons.mp hx with rfl | hx
    · have := (h.forms n hn').1; omega
    · exact (h.forms n hn').2 x hx hxe
  · intro n hn'
    refine ⟨Nat.lt_trans (h.heads n hn').1 hl, ?_⟩
    intro x hx hxe
    rcases List.mem_cons.mp hx with rfl | hx
    · have := (h.heads n hn').1; omega
    · exact (h.heads n hn').2 x hx hxe

theorem CoreOf.push {d : Dom} {e : Entry} (h : CoreOf q dom stack fmt form head tmpl) (hd : Up dom d) (hn : e.node = dom.length)
    (hl : dom.length < d.length) (hs : e.ns = .html) (ht : Ins dom e.tag) (hp : e.tag = .k .table → parentOf d e.node ≠ none)
    (hk : tagAt d e.node = some (e.ns, e.tag)) : CoreOf q d (e :: stack) fmt form head tmpl :=
  h.push' hd.2.1 hn hl hs ht.1 hp ((h.tops.up hd.2.2).cons hk (fun hc => absurd hc ht.2.1) (fun l hl => (ht.2.2.1 l hl).kept h.tops.wf hd.2.2) fun hc => (ht.2.2.2 hc).kept h.tops.wf hd.2.2)

/-! Places and links. -/

theorem parent_lt {d : Dom} {y : Nat} (h : parentOf d y ≠ none) : y < d.length := by
  by_contra hc
  apply h
  unfold parentOf
  rw [List.getElem?_eq_none (by omega)]
  rfl

theorem parent_append {d : Dom} {n : Node} {y : Nat} (h : parentOf d y ≠ none) : parentOf (d ++ [n]) y = parentOf d y := by
  have := parent_lt h
  unfold parentOf
  rw [List.getElem?_append_left this]

theorem fromLast_some {t : K} : ∀ {l : List Entry} {b : Entry} {lb : List Entry}, fromLast t l = b :: lb → b.is t = true ∧ b ∈ l ∧ (b :: lb) <:+ l
  | [], _, _, h => by simp [fromLast] at h
  | e :: l, b, lb, h => by
    unfold fromLast at h
    split at h
    · rename_i he
      cases h
      exact ⟨he, by simp, List.suffix_rfl⟩
    · obtain ⟨h1, h2, h3⟩ := fromLast_some h
      exact ⟨h1, by simp [h2], h3.trans (List.suffix_cons _ _)⟩

theorem is_tag {e : Entry} {k : K} (h : e.is k = true) : e.ns = .html ∧ e.tag = .k k := by
  unfold Entry.is at h
  rw [Bool.and_eq_true] at h
  exact ⟨by simpa using h.1, is_iff.mp h.2⟩

theorem fromLast_nil {t : K} : ∀ {l : List Entry}, fromLast t l = [] → ∀ e ∈ l, e.is t = false
  | [], _, _, he => by cases he
  | x :: l, h, e, he => by
    unfold fromLast at h
    split at h
    · cases h
    · rename_i hx
      rcases List.mem_cons.mp he with rfl | he
      · simpa using hx
      · exact fromLast_nil h e he

/-- Parts of tables are in tables. -/
def Tabled (st : List Entry) : Prop := ∀ e ∈ st, e.isIn [.table, .tbody, .tfoot, .thead, .tr] = true → ∃ b ∈ st, b.is .table = true

theorem place_ok (h : Core q s) (hr : Rooted s.stack) {target : Entry} (hm : target ∈ s.stack) :
    ∃ pl p, place s target = .ok pl ∧ pl.parent s.dom = some p ∧ Elem s.dom p ∧ (target.tag ≠ .k .html → Tabled s.stack → Deep s.dom p) := by
  have el : ∀ e ∈ s.stack, Elem s.dom e.node := fun e he => Forest.tag_elem (h.tops.tags e he)
  unfold place
  have foster : ∀ b lb, fromLast .table s.stack = b :: lb → ∃ pl p, place.fosterTable s b lb = .ok pl ∧ pl.parent s.dom = some p ∧ Elem s.dom p ∧
      (target.tag ≠ .k .html → Tabled s.stack → Deep s.dom p) := by
    intro b lb hb
    obtain ⟨h1, h2, h3⟩ := fromLast_some hb
    have hin := h.tops.inner (h.tops.tame b h2 (is_tag h1).2) (h.tops.tags b h2) (show Tag.mem b.tag _ = false by rw [(is_tag h1).2]; rfl)
    have hpn := h.tables b h2 (is_tag h1).2
    cases hp : parentOf s.dom b.node with
    | none => exact absurd hp hpn
    | some p =>
      have hdp := hin p hp
      unfold place.fosterTable
      rw [if_pos (by rw [hp]; simpa using hdp.1)]
      exact ⟨_, p, rfl, hp, (h.tops.wf.box _ _ hp).resolve_left hdp.1, fun _ _ => hdp⟩
  split
  · rename_i hc
    split
    · rename_i t lt b lb h1 h2
      split
      · obtain ⟨h3, h4, -⟩ := fromLast_some h1
        exact absurd (is_tag h3).2 (h.names t h4).2
      · exact foster _ _ h2
    · rename_i b lb h1 h2
      exact foster _ _ h2
    · rename_i h2
      obtain ⟨l, e, hl, he⟩ := hr
      unfold front
      rw [show s.stack.getLast? = some e by rw [hl]; simp]
      refine ⟨_, _, rfl, rfl, el e (by rw [hl]; simp), fun _ ht => ?_⟩
      rw [Bool.and_eq_true] at hc
      obtain ⟨b, hb, hbt⟩ := ht target hm hc.2
      rw [fromLast_nil h2 b hb] at hbt
      cases hbt
  · exact ⟨_, _, rfl, rfl, el target hm, fun ht _ => h.tops.deep (h.tops.tags target hm) ht⟩

theorem parent_modify_kids {d : Dom} {p y : Nat} {f : List Nat → List Nat} :
    parentOf (d.modify p fun n => { n with kids := f n.kids }) y = parentOf d y := by
  unfold parentOf
  rw [List.getElem?_modify]
  split
  · rename_i h
    subst h
    cases d[p]? <;> rfl
  · cases d[y]? <;> rfl

theorem parent_set {d : Dom} {x y : Nat} {p : Option Nat} :
    parentOf (d.modify x fun n => { n with parent := p }) y = if y = x ∧ x < d.length then p else parentOf d y := by
  unfold parentOf
  rw [List.getElem?_modify]
  by_cases h : x = y
  · subst h
    by_cases hl : x < d.length
    · simp [hl]
    · simp [hl]
  · have h' : ¬ (y = x ∧ x < d.length) := fun hc => h hc.1.symm
    rw [if_neg h']
    simp only [if_neg h]
    cases d[y]? <;> rfl

/-- Linking succeeds where the place has a parent. -/
theorem link_ok {d : Dom} {pl : Place} {p x : Nat} (hp : pl.parent d = some p) :
    ∃ d', link d pl x = .ok d' ∧ d'.length = d.length ∧ (∀ y, parentOf d' y = if y = x ∧ x < d.length then some p else parentOf d y) := by
  cases pl with
  | last q =>
    cases hp
    refine ⟨_, rfl, by simp, fun y => ?_⟩
    rw [parent_set, parent_modify_kids (f := fun k => k ++ [x])]
    simp
  | before y0 =>
    unfold link
    have : parentOf d y0 = some p := hp
    dsimp only
    rw [this]
    refine ⟨_, rfl, by simp, fun y => ?_⟩
    rw [parent_set, parent_modify_kids (f := fun k => insBefore y0 x k)]
    simp

/-- A new node is linked. -/
theorem link_new' {d : Dom} {pl : Place} {p : Nat} {k : Kind} (hp : pl.parent d = some p) :
    ∃ d', link (d ++ [⟨k, none, []⟩]) pl d.length = .ok d' ∧ d'.length = d.length + 1 ∧ (∀ y, parentOf d y ≠ none → parentOf d' y ≠ none) ∧
      parentOf d' d.length ≠ none := by
  have hp' : pl.parent (d ++ [⟨k, none, []⟩]) = some p := by
    cases pl with
    | last q => exact hp
    | before y =>
      have hp : parentOf d y = some p := hp
      show parentOf _ y = some p
      rw [parent_append (by rw [hp]; simp), hp]
  obtain ⟨d', h1, h2, h3⟩ := link_ok (x := d.length) hp'
  refine ⟨d', h1, by simpa using h2, fun y hy => ?_, ?_⟩
  · rw [h3]
    split
    · simp
    · rw [parent_append hy]; exact hy
  · rw [h3, if_pos ⟨rfl, by simp⟩]; simp

theorem link_new {d : Dom} {pl : Place} {p : Nat} {k : Kind} (w : Wf d) (hp : pl.parent d = some p) (hb : p = 0 ∨ Elem d p) (hk : k ≠ .document)
    (ht : ∀ t, k = .text t → t ≠ []) (hn : (∀ ns t a, k ≠ .elem ns t a) ∨ Deep d p) :
    ∃ d', link (d ++ [⟨k, none, []⟩]) pl d.length = .ok d' ∧ d'.length = d.length + 1 ∧ Up d d' ∧ parentOf d' d.length ≠ none ∧
      kindOf d' d.length = some k := by
  obtain ⟨d', h1, h2, h3, h4⟩ := link_new' (k := k) hp
  have := Kept.link_new (d := d) (pl := pl) (k := k) (fun p' hp' => by rw [hp] at hp'; cases hp'; exact hb) hk ht
    (hn.imp id fun h p' hp' => by rw [hp] at hp'; cases hp'; exact h) w h1
  exact ⟨d', h1, h2, ⟨by omega, h3, this.1⟩, h4, this.2⟩

theorem cur_ok (hr : Rooted s.stack) : ∃ e, cur s = .ok e ∧ e ∈ s.stack := by
  unfold cur
  cases hs : s.stack with
  | nil => exact absurd hs hr.ne
  | cons e l => exact ⟨e, rfl, by simp⟩

/-- Stacks with something in the root, where elements may be put. -/
def Dp (st : List Entry) : Prop := Rooted st ∧ (∀ e l, st = e :: l → e.tag ≠ .k .html) ∧ Tabled st

theorem Tabled.plain {st : List Entry} {e : Entry} (h : Tabled st) (he : Plain e) : Tabled (e :: st) := by
  intro x hx hxt
  rcases List.mem_cons.mp hx with rfl | hx
  · exfalso
    unfold Entry.isIn at hxt
    rw [Bool.and_eq_true] at hxt
    have h2 := he.2
    cases hg : x.tag with
    | other => rw [hg] at hxt; cases hxt.2
    | k y =>
      rw [hg] at hxt h2
      simp only [Tag.mem, List.contains_eq_mem, decide_eq_true_eq, decide_eq_false_iff_not] at hxt h2
      have : ∀ y ∈ [K.table, .tbody, .tfoot, .thead, .tr], y ∈ structural := by decide
      exact h2 (this y hxt.2)
  · obtain ⟨b, hb, h1⟩ := h x hx hxt
    exact ⟨b, by simp [hb], h1⟩

theorem plain_html {e : Entry} (h : Plain e) : e.tag ≠ .k .html := by
  intro hc
  have := h.2
  rw [hc] at this
  revert this
  decide

theorem Dp.plain {st : List Entry} {e : Entry} (h : Rooted st) (ht : Tabled st) (he : Plain e) : Dp (e :: st) :=
  ⟨h.cons e, fun _ _ hc => by cases hc; exact plain_html he, ht.plain he⟩

theorem Tabled.other {st : List Entry} {e : Entry} (h : Tabled st) {l : List K} (he : Nm e l) (hl : ∀ k ∈ l, k ∉ [K.table, .tbody, .tfoot, .thead, .tr]) :
    Tabled (e :: st) := by
  intro x hx hxt
  rcases List.mem_cons.mp hx with rfl | hx
  · exfalso
    obtain ⟨h1, k, hk, h2⟩ := he
    rw [isIn_k h1 h2] at hxt
    exact hl k hk (by simpa using hxt)
  · obtain ⟨b, hb, h1⟩ := h x hx hxt
    exact ⟨b, by simp [hb], h1⟩

theorem Tabled.there {st : List Entry} {b : Entry} (hb : b ∈ st) (h : b.is .table = true) : Tabled st := fun _ _ _ => ⟨b, hb, h⟩

theorem Tabled.plains {st : List Entry} (h : Tabled st) : ∀ {l : List Entry}, (∀ x ∈ l, Plain x) → Tabled (l ++ st)
  | [], _ => h
  | e :: l, hl => (Tabled.plains h fun x hx => hl x (by simp [hx])).plain (hl e (by simp))

theorem nm_table {e : Entry} (h : Nm e [.table]) : e.is .table = true := by
  obtain ⟨h1, k, hk, h2⟩ := h
  simp only [List.mem_singleton] at hk
  subst hk
  rw [is_k h1 h2]; rfl

theorem base_table {z : Zone} {l : List Entry} (h : Base z l) : z = .body ∨ ∃ b ∈ l, b.is .table = true := by
  induction h with
  | body => exact .inl rfl
  | table h1 => exact .inr ⟨_, by simp, nm_table h1⟩
  | sec _ _ ih | row _ _ ih | cell _ _ ih | caption _ _ ih | group _ _ ih =>
    rcases ih with h | ⟨b, hb, h⟩
    · cases h
    · exact .inr ⟨b, by simp [hb], h⟩

theorem Tabled.html {e : Entry} (h : Nm e [.html]) : Tabled [e] := Tabled.other (st := []) (fun _ h => by cases h) h (by decide)

theorem Base.tabled {z : Zone} {l : List Entry} (h : Base z l) : Tabled l := by
  rcases base_table h with rfl | ⟨b, hb, h'⟩
  · cases h with
    | body h1 h2 => exact (Tabled.html h2).other h1 (by decide)
  · exact Tabled.there hb h'

theorem Sh.tabled {z : Zone} {st : List Entry} (h : Sh z st) : Tabled st := by
  obtain ⟨pre, base, rfl, h1, h2⟩ := h
  exact h2.tabled.plains h1

theorem Base.body_mem {z : Zone} {l : List Entry} (h : Base z l) : ∃ b ∈ l, b.tag = .k .body := by
  induction h with
  | body h1 =>
    obtain ⟨-, k, hk, h2⟩ := h1
    simp only [List.mem_singleton] at hk
    subst hk
    exact ⟨_, by simp, h2⟩
  | table _ _ _ _ ih | sec _ _ ih | row _ _ ih | cell _ _ ih | caption _ _ ih | group _ _ ih =>
    obtain ⟨b, hb, h⟩ := ih
    exact ⟨b, by simp [hb], h⟩

/-- In a zone the root has a head and a body. -/
theorem Sh.has {z : Zone} {st : List Entry} (h : Sh z st) (ht : Tops dom st head) : Has dom [.head, .body] := by
  obtain ⟨pre, base, rfl, h1, h2⟩ := h
  obtain ⟨b, hb, hk⟩ := h2.body_mem
  exact ht.stage b (List.mem_append_right _ hb) _ (by rw [hk]; rfl)

theorem Sh.tame {z : Zone} {st : List Entry} (h : Sh z st) (ht : Tops dom st head) : Tame dom := Has.tame (h.has ht) (by decide)

theorem nm_html {e : Entry} {l : List K} (h : Nm e l) (hl : .html ∉ l) : e.tag ≠ .k .html := by
  obtain ⟨-, k, hk, h⟩ := h
  rw [h]
  rintro ⟨⟩
  exact hl hk

theorem Sh.dp {z : Zone} {st : List Entry} (h : Sh z st) : Dp st := by
  refine ⟨h.rooted, ?_, h.tabled⟩
  obtain ⟨pre, base, rfl, h1, h2⟩ := h
  intro e l hl
  cases pre with
  | cons x pre => cases hl; exact plain_html (h1 _ (by simp))
  | nil =>
    cases h2 <;> cases hl <;> rename_i hn _ <;> first | exact nm_html hn (by decide) | skip
    all_goals exact nm_html (by assumption) (by decide)

theorem insertHtml_ok (h : Core q s) (hr : Dp s.stack) {t : Tag} (ht : Ins s.dom t) (attrs : List At) :
    ∃ d, insertHtml s t attrs = .ok { s with dom := d, stack := ⟨s.dom.length, .html, t, attrs⟩ :: s.stack } ∧ Up s.dom d ∧
      s.dom.length < d.length ∧
      CoreOf q d (⟨s.dom.length, .html, t, attrs⟩ :: s.stack) s.fmt s.form s.head s.tmpl := by
  unfold insertHtml insertForeign create
  obtain ⟨e, hs, he⟩ := cur_ok hr.1
  have het : e.tag ≠ .k .html := by
    unfold cur at hs
    split at hs
    · cases hs
    · rename_i hst
      cases hs
      exact hr.2.1 _ _ hst
  obtain ⟨pl, p, h1, h2, h2', h2''⟩ := place_ok h hr.1 he
  obtain ⟨d, h3, h4, h5, h6, h7⟩ := link_new (k := .elem .html t attrs) h.tops.wf h2 (.inr h2') (by simp) (by simp) (.inr (h2'' het hr.2.2))
  refine ⟨d, ?_, h5, by omega, h.push h5 rfl (by omega) rfl ht (fun _ => h6) ?_⟩
  · rw [hs, bind_ok, h1, bind_ok]
    dsimp only
    rw [h3]
    rfl
  · unfold tagAt
    rw [h7]

theorem insertPop_ok (h : Core q s) (hr : Dp s.stack) {t : Tag} (ht : Ins s.dom t) (attrs : List At) :
    ∃ d, insertPop s t attrs = .ok { s with dom := d } ∧ CoreOf q d s.stack s.fmt s.form s.head s.tmpl ∧ Kept s.dom d := by
  obtain ⟨d, h1, h2, -, h3⟩ := insertHtml_ok h hr ht attrs
  refine ⟨d, ?_, h.up h2, h2.2.2⟩
  unfold insertPop
  rw [h1]
  rfl

theorem up_kind {d : Dom} {x : Nat} {f : Kind → Kind} (hf : ∀ k, kindOf d x = some k → Forest.Sim (some k) (some (f k))) :
    Up d (d.modify x fun n => { n with kind := f n.kind }) := by
  refine ⟨by simp, fun y hy => ?_, Kept.modify hf⟩
  have : parentOf (d.modify x fun n => { n with kind := f n.kind }) y = parentOf d y := by
    unfold parentOf
    rw [List.getElem?_modify]
    split
    · rename_i h; subst h; cases d[x]? <;> simp
    · cases d[y]? <;> rfl
  rw [this]; exact hy

theorem insertChar_ok (h : Core q s) (hr : Rooted s.stack) (c : Nat) :
    ∃ d, insertChar s c = .ok { s with dom := d } ∧ CoreOf q d s.stack s.fmt s.form s.head s.tmpl ∧ Kept s.dom d := by
  unfold insertChar
  obtain ⟨e, hs, he⟩ := cur_ok hr
  obtain ⟨pl, p, h1, h2, h2', -⟩ := place_ok h hr he
  obtain ⟨d, h3, h4, h5, h6, -⟩ := link_new (k := .text [c]) h.tops.wf h2 (.inr h2') (by simp) (by simp) (.inl (by simp))
  rw [hs, bind_ok, h1, bind_ok, h2]
  dsimp only
  split
  · exact ⟨s.dom, rfl, h, Kept.refl _⟩
  · split
    · next x t hx =>
      have hk : kindOf s.dom x = some (.text t) := by
        rw [Option.bind_eq_some_iff] at hx
        obtain ⟨y, -, hx⟩ := hx
        rw [Option.bind_eq_some_iff] at hx
        obtain ⟨k, hk, hx⟩ := hx
        cases k <;> cases hx
        exact hk
      have hu := up_kind (d := s.dom) (x := x) (f := fun _ => .text (t ++ [c]))
        (fun k h => by rw [hk] at h; cases h; exact .inr (.inr ⟨t, t ++ [c], rfl, rfl, by simp⟩))
      exact ⟨_, rfl, h.up hu, hu.2.2⟩
    · refine ⟨d, ?_, h.up h5, h5.2.2⟩
      rw [h3]
      rfl

theorem commentAt_ok (h : Core q s) {pl : Place} {p : Nat} (hp : pl.parent s.dom = some p) (hb : p = 0 ∨ Elem s.dom p) (t : List Nat) :
    ∃ d, commentAt s pl t = .ok { s with dom := d } ∧ CoreOf q d s.stack s.fmt s.form s.head s.tmpl ∧ Kept s.dom d := by
  obtain ⟨d, h3, h4, h5, h6, -⟩ := link_new (k := .comment t) h.tops.wf hp hb (by simp) (by simp) (.inl (by simp))
  refine ⟨d, ?_, h.up h5, h5.2.2⟩
  unfold commentAt
  rw [h3]
  rfl

theorem insertComment_ok (h : Core q s) (hr : Rooted s.stack) (t : List Nat) :
    ∃ d, insertComment s t = .ok { s with dom := d } ∧ CoreOf q d s.stack s.fmt s.form s.head s.tmpl ∧ Kept s.dom d := by
  unfold insertComment
  obtain ⟨e, hs, he⟩ := cur_ok hr
  obtain ⟨pl, p, h1, h2, h2', -⟩ := place_ok h hr he
  obtain ⟨d, h3, h4⟩ := commentAt_ok h h2 (.inr h2') t
  refine ⟨d, ?_, h4⟩
  rw [hs, bind_ok, h1, bind_ok]
  exact h3

theorem merge_up (n : Nat) (attrs : List At) : ∀ d : Dom, Up d (mergeAttrs d n attrs) := by
  unfold mergeAttrs
  induction attrs with
  | nil => exact fun d => Up.refl d
  | cons a l ih =>
    intro d
    simp only [List.foldl_cons]
    refine Up.trans ?_ (ih _)
    split
    · exact Up.refl d
    · refine Eq.mp (congrArg (fun f => Up d (d.modify n f)) ?_)
        (up_kind (d := d) (x := n) (f := fun k => match k with | .elem ns t l => .elem ns t (l ++ [a]) | k => k) fun k hk => ?_)
      · funext nd
        obtain ⟨k, p, l⟩ := nd
        cases k <;> rfl
      · cases k <;> first | exact .inl rfl | exact .inr (.inl ⟨_, _, _, _, rfl, rfl⟩)

theorem htmlStart_ok (h : Core q s) (hr : Rooted s.stack) (attrs : List At) :
    ∃ d, htmlStart s attrs = .ok { s with dom := d } ∧ CoreOf q d s.stack s.fmt s.form s.head s.tmpl ∧ Kept s.dom d := by
  unfold htmlStart
  split
  · exact ⟨s.dom, rfl, h, Kept.refl _⟩
  · obtain ⟨l, e, hl, he⟩ := hr
    unfold front
    rw [show s.stack.getLast? = some e by rw [hl]; simp]
    exact ⟨_, rfl, h.up (merge_up _ _ _), (merge_up _ _ _).2.2⟩

/-! The list of formatting elements. -/

theorem clear_sub : ∀ (l : List Fmt) e, Fmt.el e ∈ clearMarker l → Fmt.el e ∈ l
  | [], _, h => by simp [clearMarker] at h
  | .marker :: l, e, h => by simpa [clearMarker] using h
  | .el x :: l, e, h => by
    have : Fmt.el e ∈ clearMarker l := by simpa [clearMarker] using h
    exact List.mem_cons_of_mem _ (clear_sub l e this)

theorem drop_sub (n : Nat) (l : List Fmt) : ∀ e, Fmt.el e ∈ dropFmt n l → Fmt.el e ∈ l := fun _ h => List.mem_of_mem_eraseP h

theorem toOpen_sub (s : S) : ∀ (l : List Fmt), (∀ e ∈ (toOpen s l).1, Fmt.el e ∈ l) ∧ ∀ e, Fmt.el e ∈ (toOpen s l).2 → Fmt.el e ∈ l
  | [] => by simp [toOpen]
  | .marker :: l => by simp [toOpen]
  | .el x :: l => by
    obtain ⟨h1, h2⟩ := toOpen_sub s l
    unfold toOpen
    split
    · simp
    · refine ⟨?_, fun e he => List.mem_cons_of_mem _ (h2 e he)⟩
      intro e he
      rcases List.mem_cons.mp he with rfl | he
      · simp
      · exact List.mem_cons_of_mem _ (h1 e he)

theorem not_template {t : Tag} (h : t.mem structural = false) : t ≠ .k .template ∧ t ≠ .k .html := by
  constructor <;> rintro rfl <;> revert h <;> decide

theorem Ins.plain {d : Dom} {t : Tag} (h : t.mem structural = false) : Ins d t := by
  refine Ins.of ?_
  cases t with
  | other => rfl
  | k y =>
    simp only [Tag.mem, List.contains_eq_mem, decide_eq_false_iff_not] at h ⊢
    have : ∀ y ∈ [K.template, .html, .head, .body, .frameset, .table], y ∈ structural := by decide
    exact fun hc => h (this y hc)

/-- What opening elements again leaves. -/
def Opened (q : Prop) (s s' : S) : Prop := ∃ d new f, s' = { s with dom := d, stack := new ++ s.stack, fmt := f } ∧ (∀ x ∈ new, Plain x) ∧ Core q s' ∧ Kept s.dom d

theorem CoreOf.add (h : CoreOf q dom stack fmt form head tmpl) (hq : q) {e : Entry} (hs : e.node < dom.length) (ht : e.tag.mem structural = false)
    (hp : ∀ x ∈ stack, x.node = e.node → x.tag.mem structural = false) :
    CoreOf q dom stack (.el e :: fmt) form head tmpl := by
  refine { h with fmts := fun x hx => ?_, quiet := fun hn => absurd hq hn }
  rcases List.mem_cons.mp hx with hx | hx
  · cases hx; exact ⟨hs, ht, hp⟩
  · exact h.fmts x hx

theorem reopen_ok : ∀ (l : List Entry) (s : S), Core q s → Dp s.stack → (∀ e ∈ l, q ∧ e.tag.mem structural = false) →
    ∃ s', reopen s l = .ok s' ∧ Opened q s s'
  | [], s, h, hr, _ => ⟨s, rfl, s.dom, [], s.fmt, rfl, by simp, h, Kept.refl _⟩
  | e :: l, s, h, hr, hl => by
    obtain ⟨d, h1, h2, h2', h3⟩ := insertHtml_ok h hr (Ins.plain (hl e (by simp)).2) e.attrs
    unfold reopen
    rw [h1]
    let x : Entry := ⟨s.dom.length, .html, e.tag, e.attrs⟩
    have hc : CoreOf q d (x :: s.stack) (.el x :: s.fmt) s.form s.head s.tmpl := by
      refine h3.add (hl e (by simp)).1 h2' (hl e (by simp)).2 ?_
      intro y hy hye
      rcases List.mem_cons.mp hy with rfl | hy
      · exact (hl e (by simp)).2
      · have := h.small y hy
        have : y.node = s.dom.length := hye
        omega
    obtain ⟨s', h4, d', new, f, h5, h6, h7, h8⟩ := reopen_ok l { s with dom := d, stack := x :: s.stack, fmt := .el x :: s.fmt } hc (Dp.plain hr.1 hr.2.2 ⟨rfl, (hl e (by simp)).2⟩)
      (fun y hy => hl y (by simp [hy]))
    refine ⟨s', h4, d', new ++ [x], f, ?_, ?_, h7, h2.2.2.trans h8⟩
    · rw [h5]; simp
    · intro y hy
      rcases List.mem_append.mp hy with hy | hy
      · exact h6 y hy
      · cases List.mem_singleton.mp hy
        exact ⟨rfl, (hl e (by simp)).2⟩

theorem CoreOf.loud (h : CoreOf q dom stack fmt form head tmpl) {e : Entry} (he : Fmt.el e ∈ fmt) : q := by
  by_contra hq
  exact h.quiet hq e he

theorem reconstruct_ok (h : Core q s) (hr : Dp s.stack) : ∃ s', reconstruct s = .ok s' ∧ Opened q s s' := by
  unfold reconstruct
  obtain ⟨h1, h2⟩ := toOpen_sub s s.fmt
  obtain ⟨s', h3, d, new, f, h4, h5, h6⟩ := reopen_ok (toOpen s s.fmt).1.reverse { s with fmt := (toOpen s s.fmt).2 }
    (CoreOf.fmt' h h2) hr (fun e he => ⟨h.loud (h1 e (by simpa using he)), (h.fmts e (h1 e (by simpa using he))).2.1⟩)
  exact ⟨s', h3, d, new, f, h4, h5, h6⟩

theorem node_inj : ∀ {l : List Entry} {x y : Entry}, (l.map Entry.node).Nodup → x ∈ l → y ∈ l → x.node = y.node → x = y
  | [], _, _, _, hx, _, _ => by simp at hx
  | e :: l, x, y, h, hx, hy, he => by
    rw [List.map_cons, List.nodup_cons] at h
    rcases List.mem_cons.mp hx with h1 | h1 <;> rcases List.mem_cons.mp hy with h2 | h2
    · rw [h1, h2]
    · exact absurd (List.mem_map.mpr ⟨y, h2, by rw [← he, h1]⟩) h.1
    · exact absurd (List.mem_map.mpr ⟨x, h1, by rw [he, h2]⟩) h.1
    · exact node_inj h.2 h1 h2 he

theorem pushFmt_core {e : Entry} (hq : q) (h : Core q s) (he : e ∈ s.stack) (ht : e.tag.mem structural = false) : Core q (pushFmt s e) := by
  unfold pushFmt
  dsimp only
  have hp : ∀ x ∈ s.stack, x.node = e.node → x.tag.mem structural = false := by
    intro x hx hxe
    have : x = e := node_inj h.nodup hx he hxe
    rw [this]; exact ht
  split
  · split
    · exact CoreOf.add (CoreOf.fmt' h (drop_sub _ _)) hq (h.small e he) ht hp
    · exact CoreOf.add h hq (h.small e he) ht hp
  · exact CoreOf.add h hq (h.small e he) ht hp

theorem insertFmtEl_ok (hq : q) (h : Core q s) (hr : Dp s.stack) {t : Tag} (ht : t.mem structural = false) (attrs : List At) :
    ∃ s', insertFmtEl s t attrs = .ok s' ∧ Opened q s s' := by
  obtain ⟨d, h1, h2, h2', h3⟩ := insertHtml_ok h hr (Ins.plain ht) attrs
  unfold insertFmtEl
  rw [h1]
  refine ⟨_, rfl, ?_⟩
  have := pushFmt_core (q := q) (s := { s with dom := d, stack := ⟨s.dom.length, .html, t, attrs⟩ :: s.stack }) (e := ⟨s.dom.length, .html, t, attrs⟩) hq h3
    (by simp) ht
  refine ⟨d, [⟨s.dom.length, .html, t, attrs⟩], _, rfl, ?_, this, h2.2.2⟩
  intro x hx
  cases List.mem_singleton.mp hx
  exact ⟨rfl, ht⟩

end Verif.Proof.HtmlTree.Safe
