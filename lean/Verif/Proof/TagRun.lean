import Verif.Proof.TagMove
import Verif.Model.TagTreeUse

/-! Histories of the tag tree and loops over it. -/
namespace Verif.Proof.TagTree
open Verif.Spec Verif.Spec.Forest Verif.Spec.Tags Verif.Model.TagTree
open Verif.Proof.Tree (children_sub isNode_mem)
variable {α : Type} [Inhabited α]

theorem Rep.spot {t : T α} {f l d} (R : Rep t f l d) {p pos} (hp : Tags.IsPos f p pos) : spot t p pos = some (place f p pos) := by
  unfold Verif.Model.TagTree.spot place
  by_cases h : pos = 0
  · rw [if_neg (fun x => x h), if_pos h]
    by_cases h0 : p = 0
    · rw [if_neg (fun x => x h0), close, if_pos h0]
    · rw [if_pos h0]
      exact (R.beginOf (hp.1.resolve_left h0).1).2
  · rw [if_pos h, if_neg h]

theorem smallest_new {t : T α} {w l} (L : Lk t w l []) : smallest w ∉ w ∧ smallest w ≠ 0 := by
  obtain ⟨t1, n, l1, e1, L1, hn0, hnw, hmin, -⟩ := allocate_spec L default
  rw [← smallest_eq hn0 hnw hmin]
  exact ⟨hnw, hn0⟩

theorem exec_rep {t : T α} {f l} (single : α → Bool) (R : Rep t f l []) {op : Op α} (ok : Tags.Ok f op) (safe : Tags.Safe f op) :
    ∃ t' l', exec single t op = some t' ∧ Rep t' (Tags.step single f op) l' [] := by
  cases op with
  | insert p pos v =>
    obtain ⟨t', l', e, R'⟩ := insert_rep R ok single v
    exact ⟨t', l', by rw [exec, R.spot ok, Option.bind_some, e]; rfl, R'⟩
  | erase p x =>
    obtain ⟨t', l', e, _, h, R'⟩ := erase_rep R (isNode_mem ok)
    exact ⟨t', l', by rw [exec, h]; rfl, R'⟩
  | move p pos q x =>
    obtain ⟨t', e, R', _⟩ := move_rep R ok.1 ok.2.1 ok.2.2 safe
    exact ⟨t', l, by rw [exec, R.spot ok.1, Option.bind_some, e]; rfl, R'⟩
  | clear => exact ⟨T.empty, [], rfl, rep_empty⟩

theorem execAll_rep (single : α → Bool) : ∀ (ops : List (Op α)) {t : T α} {f l}, Rep t f l [] → Tags.Valid single f ops →
    Tags.SafeAll single f ops →
    ∃ t' l', execAll single t ops = some t' ∧ Rep t' (ops.foldl (Tags.step single) f) l' [] := by
  intro ops
  induction ops with
  | nil => intro t f l R _ _; exact ⟨t, l, rfl, R⟩
  | cons op ops ih =>
    intro t f l R hv hs
    obtain ⟨t1, l1, e1, R1⟩ := exec_rep single R hv.1 hs.1
    obtain ⟨t2, l2, e2, R2⟩ := ih R1 hv.2 hs.2
    refine ⟨t2, l2, ?_, R2⟩
    rw [execAll, List.foldlM_cons, e1]
    exact e2

theorem run_rep {single : α → Bool} {ops : List (Op α)} (hv : Tags.Valid single .nil ops) (hs : Tags.SafeAll single .nil ops) :
    ∃ t l, execAll single T.empty ops = some t ∧ Rep t (Tags.run single ops) l [] :=
  execAll_rep single ops rep_empty hv hs

/-! Serial loops -/

theorem names_script (f : TF α) : names f = (script f).map Tag.name := by
  induction f with
  | nil => rfl
  | cons i x k s hk hs =>
    rw [names, script]
    split
    · rw [hs]; rfl
    · rw [hk, hs, List.map_cons, List.map_append]; rfl

theorem see_eq {t : T α} {i : Nat} (h : i < t.len) :
    see t i = some ⟨i, t.val i, decide (t.tail i ≠ 0), decide (t.head i ≠ 0), if t.tail i ≠ 0 then i else t.head i,
      if t.head i ≠ 0 then i else t.tail i⟩ := by
  simp only [see, T.rd, h, if_true, isStart, isEnd, startTag, endTag, Option.bind_some, Option.map_some, decide_eq_true_eq]
  split <;> split <;> simp

/-- Tags of the forest and what the container holds for them. -/
theorem script_tags {t : T α} {f : TF α} (hz : ∀ i ∈ names f, i < t.len ∧ i ≠ 0) (hw : wf f)
    (hg : ∀ n ∈ nodes f, Tg t n.1 n.2.1 n.2.2) : ∀ x ∈ script f, see t x.name = some (view x) := by
  induction f with
  | nil => simp [script]
  | cons i y k s hk hs =>
    obtain ⟨w1, w2, w3⟩ := hw
    have G := hg (i, y) (by simp [nodes])
    have hk' : (∀ i ∈ names k, i < t.len ∧ i ≠ 0) → _ := fun h => hk h w2 (fun n hn => hg n (by simp [nodes, hn]))
    have hs' : (∀ i ∈ names s, i < t.len ∧ i ≠ 0) → _ := fun h => hs h w3 (fun n hn => hg n (by simp [nodes, hn]))
    intro x hx
    rw [names] at hz
    rw [script] at hx
    have hi := hz i (by simp)
    by_cases he : y.2 = 0
    · rw [if_pos he] at hx hz
      rcases List.mem_cons.mp hx with rfl | hx
      · rw [Tag.name, see_eq hi.1, G.val, G.head, G.tail]
        simp [view, he]
      · exact hs' (fun j hj => hz j (by simp [hj])) x hx
    · rw [if_neg he] at hx hz
      rcases List.mem_cons.mp hx with rfl | hx
      · rw [Tag.name, see_eq hi.1, G.val, G.head, G.tail]
        simp [view, he]
      · rcases List.mem_append.mp hx with hx | hx
        · exact hk' (fun j hj => hz j (by simp [hj])) x hx
        · rcases List.mem_cons.mp hx with rfl | hx
          · rw [Tag.name, see_eq (hz y.2 (by simp)).1, G.eval he, G.ehead he, G.etail he]
            simp [view, hi.2]
          · exact hs' (fun j hj => hz j (by simp [hj])) x hx

theorem Rep.see {t : T α} {f l d} (R : Rep t f l d) : ∀ x ∈ script f, see t x.name = some (view x) :=
  script_tags (fun _ h => ⟨R.lk.w_lt h, R.lk.w0 h⟩) R.ok R.tg

theorem swalk_seg {t : T α} : ∀ (w : List (Tag α)) (a fuel : Nat), Seg t.next t.prev a (w.map Tag.name) 0 →
    (∀ x ∈ w, x.name < t.len ∧ x.name ≠ 0 ∧ see t x.name = some (view x)) → w.length ≤ fuel →
    swalk t fuel (hd (w.map Tag.name) 0) = some (w.map view) := by
  intro w
  induction w with
  | nil => intro a fuel _ _ _; rw [swalk.eq_def]; rfl
  | cons x w ih =>
    intro a fuel S h hf
    obtain ⟨fuel, rfl⟩ : ∃ n, fuel = n + 1 := ⟨fuel - 1, by simp at hf; omega⟩
    obtain ⟨h1, h2, h3⟩ := h x (by simp)
    have S' := S.2.2
    rw [show hd ((x :: w).map Tag.name) 0 = x.name from rfl, swalk, if_neg h2, h3, Option.bind_some, sincr, if_neg h2, T.rd,
      if_pos h1, S'.next, Option.bind_some, ih _ fuel S' (fun y hy => h y (by simp [hy])) (by simpa using hf)]
    rfl

theorem sback_seg {t : T α} : ∀ (w : List (Tag α)) (b fuel : Nat), Seg t.next t.prev 0 (w.reverse.map Tag.name) b →
    (∀ x ∈ w, x.name < t.len ∧ x.name ≠ 0 ∧ see t x.name = some (view x)) → w.length ≤ fuel → b < t.len →
    sback t fuel b = some (w.map view) := by
  intro w
  induction w with
  | nil =>
    intro b fuel S _ _ hb
    rw [sback.eq_def]
    have : sdecr t b = some 0 := by rw [sdecr, T.rd, if_pos hb, S.prev]; rfl
    dsimp only
    rw [this]; rfl
  | cons x w ih =>
    intro b fuel S h hf hb
    obtain ⟨fuel, rfl⟩ : ∃ n, fuel = n + 1 := ⟨fuel - 1, by simp at hf; omega⟩
    obtain ⟨h1, h2, h3⟩ := h x (by simp)
    rw [List.reverse_cons, List.map_append, List.map_singleton] at S
    obtain ⟨S1, S2⟩ := seg_mid.mp S
    rw [sback, sdecr, T.rd, if_pos hb, S2.prev, Option.bind_some, show lst x.name [] = x.name from rfl, if_neg h2]
    dsimp only
    rw [h3, Option.bind_some, ih _ fuel S1 (fun y hy => h y (by simp [hy])) (by simpa using hf) h1]
    rfl

theorem Rep.len_names {t : T α} {f l d} (R : Rep t f l d) : (names f).length ≤ t.len := by
  have : (names f).Subperm (List.range t.len) := List.subperm_of_subset R.lk.ndw (fun i hi => List.mem_range.mpr (R.lk.w_lt hi))
  simpa using this.length_le

theorem Rep.all {t : T α} {f l d} (R : Rep t f l d) :
    ∀ x ∈ script f, x.name < t.len ∧ x.name ≠ 0 ∧ Model.TagTree.see t x.name = some (view x) := by
  intro x hx
  have : x.name ∈ names f := by rw [names_script]; exact List.mem_map_of_mem hx
  exact ⟨R.lk.w_lt this, R.lk.w0 this, R.see x hx⟩

theorem Rep.swalk {t : T α} {f l d} (R : Rep t f l d) :
    ∃ b, Model.TagTree.begin0 t = some b ∧ Model.TagTree.swalk t t.len b = some ((script f).map view) ∧
      Model.TagTree.sback t t.len 0 = some ((script f).map view).reverse := by
  have S := R.lk.main
  have hl := R.len_names
  rw [names_script] at S hl
  rw [List.length_map] at hl
  refine ⟨_, by rw [Model.TagTree.begin0, T.rd, if_pos R.lk.len], ?_, ?_⟩
  · rw [S.next]; exact swalk_seg _ 0 _ S R.all hl
  · rw [← List.map_reverse]
    exact sback_seg _ 0 _ (by simpa using S) (fun x hx => R.all x (List.mem_reverse.mp hx)) (by simpa using hl) R.lk.len

/-! size -/

def isStop : Tag α → Bool
  | .stop _ _ => true
  | _ => false

theorem stop_single (i : Nat) (v : α) : isStop (.single i v) = false := rfl
theorem stop_start (i : Nat) (v : α) (e : Nat) : isStop (.start i v e) = false := rfl
theorem stop_stop (e i : Nat) : isStop (.stop e i : Tag α) = true := rfl

theorem size_script (f : TF α) (w : wf f) : ((script f).filter fun x => !isStop x).length = f.size := by
  induction f with
  | nil => rfl
  | cons i x k s hk hs =>
    obtain ⟨h1, h2, h3⟩ := w
    have hk := hk h2
    have hs := hs h3
    unfold Forest.size at hk hs ⊢
    rw [script, ids]
    split
    · rename_i e
      rw [h1 e]
      simp [ids, stop_single, hs]
    · simp only [stop_start, stop_stop, List.filter_cons, List.filter_append, List.length_append, List.length_cons, Bool.not_false, Bool.not_true, if_true,
        Bool.false_eq_true, if_false, hk, hs]

theorem sizeLoop_seg {t : T α} : ∀ (w : List (Tag α)) (a fuel : Nat), Seg t.next t.prev a (w.map Tag.name) 0 →
    (∀ x ∈ w, x.name < t.len ∧ x.name ≠ 0 ∧ (t.tail x.name = 0 ∧ t.head x.name ≠ 0 ↔ isStop x = true)) → w.length ≤ fuel →
    sizeLoop t fuel (hd (w.map Tag.name) 0) = some ((w.filter fun x => !isStop x).length) := by
  intro w
  induction w with
  | nil => intro a fuel _ _ _; rw [sizeLoop.eq_def]; rfl
  | cons x w ih =>
    intro a fuel S h hf
    obtain ⟨fuel, rfl⟩ : ∃ n, fuel = n + 1 := ⟨fuel - 1, by simp at hf; omega⟩
    obtain ⟨h1, h2, h3⟩ := h x (by simp)
    have S' := S.2.2
    rw [show hd ((x :: w).map Tag.name) 0 = x.name from rfl, sizeLoop, if_neg h2]
    simp only [T.rd, h1, if_true, Option.bind_some]
    rw [S'.next, ih _ fuel S' (fun y hy => h y (by simp [hy])) (by simpa using hf), Option.map_some]
    by_cases hx : isStop x = true
    · rw [if_pos (h3.mpr hx)]; simp [List.filter_cons, hx]
    · rw [if_neg (fun hh => hx (h3.mp hh))]; simp [List.filter_cons, hx]

theorem Rep.size {t : T α} {f l d} (R : Rep t f l d) : Model.TagTree.size t = some f.size := by
  have S := R.lk.main
  have hl := R.len_names
  rw [names_script] at S hl
  rw [List.length_map] at hl
  rw [Model.TagTree.size, T.rd, if_pos R.lk.len, Option.bind_some, S.next, ← size_script f R.ok]
  refine sizeLoop_seg _ 0 _ S (fun x hx => ?_) hl
  obtain ⟨h1, h2, h3⟩ := R.all x hx
  refine ⟨h1, h2, ?_⟩
  rw [see_eq h1] at h3
  have h3 := Option.some.inj h3
  have e1 := congrArg Seen.isStart h3
  have e2 := congrArg Seen.isEnd h3
  dsimp only at e1 e2
  cases x <;> simp [view, isStop] at e1 e2 ⊢ <;> simp [e1, e2]

theorem Rep.isEmpty {t : T α} {f l d} (R : Rep t f l d) : Model.TagTree.isEmpty t = some (decide (f.size = 0)) := by
  have S := R.lk.main
  rw [Model.TagTree.isEmpty, T.rd, if_pos R.lk.len, S.next, Option.map_some]
  congr 1
  cases f with
  | nil => rfl
  | cons i x k s =>
    have : i ≠ 0 := R.lk.w0 (by simp [names])
    simp [names, hd, Forest.size, ids, this]

/-! Loops over siblings -/

theorem walk_rep {t : T α} {f l d} (R : Rep t f l d) {p : Nat} (hp : p = 0 ∨ p ∈ ids f) : ∀ (B : List (Nat × α)) (A : List Nat) (fuel : Nat),
    children f p = A ++ B.map Prod.fst → (∀ e ∈ B, t.val e.1 = e.2) → B.length ≤ fuel → Holds f p →
    walk t fuel (place f p ((B.map Prod.fst).headD 0)) (close f p) = some B := by
  intro B
  induction B with
  | nil =>
    intro A fuel _ _ _ _
    rw [Model.TagTree.walk.eq_def]
    simp [place]
  | cons b B ih =>
    intro A fuel h hv hf hh
    obtain ⟨fuel, rfl⟩ : ∃ n, fuel = n + 1 := ⟨fuel - 1, by simp at hf; omega⟩
    have hb : b.1 ∈ children f p := by rw [h]; simp
    have hbi := children_sub f p _ hb
    have hb0 : b.1 ≠ 0 := fun e => R.zero (e ▸ hbi)
    have e1 : place f p (((b :: B).map Prod.fst).headD 0) = b.1 := by
      rw [place]; simp [hb0]
    have hne : b.1 ≠ close f p := by
      intro e
      have := R.place_inj (p := p) (a := b.1) (b := 0) ⟨hh, Or.inr hb⟩ ⟨hh, Or.inl rfl⟩ (by
        rw [place, place, if_neg hb0, if_pos rfl, e])
      exact hb0 this
    rw [e1, Model.TagTree.walk, if_neg hne, deref, T.rd, if_pos (R.lk.w_lt (R.mem hbi)), Option.bind_some,
      R.incr hp (A := A) (B := B.map Prod.fst) (by simpa using h), Option.bind_some,
      ih (A ++ [b.1]) fuel (by simpa using h) (fun e he => hv e (by simp [he])) (by simpa using hf) hh, hv b (by simp)]
    rfl

theorem top_fst {γ : Type} (g : Forest γ) : (Forest.top g).map Prod.fst = roots g := by
  induction g with
  | nil => rfl
  | cons i x k s _ hs => simp [Forest.top, roots, hs]

theorem top_sub {γ : Type} (g : Forest γ) : ∀ n ∈ Forest.top g, n ∈ nodes g := by
  induction g with
  | nil => simp [Forest.top]
  | cons i x k s _ hs =>
    intro n hn
    rw [Forest.top] at hn
    rcases List.mem_cons.mp hn with rfl | hn
    · simp [nodes]
    · simp [nodes, hs n hn]

theorem Rep.walk {t : T α} {f l d} (R : Rep t f l d) {p : Nat} (hh : Holds f p) :
    Model.TagTree.walk t t.len (place f p ((children f p).headD 0)) (close f p) =
      some ((Forest.top (under f p)).map fun e => (e.1, e.2.1)) := by
  obtain ⟨h1, h2, h3⟩ := R.under_nodes hh
  have hc : children f p = ((Forest.top (under f p)).map fun e => (e.1, e.2.1)).map Prod.fst := by
    rw [List.map_map, ← h3, ← top_fst]; rfl
  have := walk_rep R (hh.imp id And.left) ((Forest.top (under f p)).map fun e => (e.1, e.2.1)) [] t.len (by rw [List.nil_append]; exact hc)
    (by
      intro e he
      obtain ⟨n, hn, rfl⟩ := List.mem_map.mp he
      exact (R.tg n (h1 n (top_sub _ n hn))).val) (by
      have e : ((Forest.top (under f p)).map fun e => (e.1, e.2.1)).length = (children f p).length := by
        rw [hc, List.length_map, List.length_map, List.length_map]
      rw [e]
      refine Nat.le_trans ?_ R.len_names
      exact ((List.subperm_of_subset (R.child_nd hh) (fun i hi => R.mem (children_sub f p i hi)))).length_le) hh
  rw [hc]; exact this

end Verif.Proof.TagTree
