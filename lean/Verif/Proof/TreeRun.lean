import Verif.Proof.TreeCopy
import Verif.Model.TreeUse

/-! Histories of the tree container. -/
namespace Verif.Proof.Tree
open Verif.Model.Tree Verif.Spec Verif.Spec.Forest
variable {α : Type}

theorem isNode_mem {f : Forest α} {p x} (h : IsNode f p x) : x ∈ ids f := children_sub f p x h.2

/-- A place under `x` lies in `x`. -/
theorem inside_kid {f : Forest α} (nd : (ids f).Nodup) (h0 : 0 ∉ ids f) {p pos x : Nat} (hx : x ∈ ids f) (hpos : pos ≠ 0)
    (hp : IsPos f p pos) (h : inside f x p) : inside f x pos := by
  have hc := hp.2.resolve_left hpos
  have hp0 : p ≠ 0 := by
    rintro rfl
    rcases h with w | w
    · exact h0 (w ▸ hx)
    · exact h0 (descendants_sub f x 0 w)
  rw [children, if_neg hp0] at hc
  exact Or.inr ((kid_descendant nd hc).mpr h)

theorem exec_rep [Inhabited α] {t : T α} {f l} (R : Rep t f .nil l) {op : Op α} (ok : op.Ok f) (safe : op.Safe f) :
    ∃ t' l', exec t op = some t' ∧ Rep t' (step f op) .nil l' ∧
      t'.len = (match op with | .clear => 1 | _ => max t.len ((step f op).size + 1)) := by
  cases op with
  | insert p pos v =>
    obtain ⟨t', l', e, R', hl, h1, h2⟩ := insert_rep R ok v
    refine ⟨t', l', by rw [exec, e]; rfl, R', ?_⟩
    obtain ⟨A, B, _, _, _, _, _, _, hperm⟩ := insert_spec (v := v) (k := .nil) R.ndf R.f0 ok h2 h1 (by simp [ids])
    have := hperm.length_eq
    have hsz : (step f (.insert p pos v)).size = f.size + 1 := by
      rw [step, Forest.size, ids_eq, List.length_map, this, Forest.size, ids_eq]
      simp [nodes]
    dsimp only
    rw [hsz, hl]
  | erase p x =>
    obtain ⟨t', l', e, R', hl⟩ := erase_rep R ok
    refine ⟨t', l', by rw [exec, e]; rfl, R', ?_⟩
    have := R'.len_eq
    dsimp only
    rw [hl] at this ⊢
    rw [step]
    omega
  | move p pos q x =>
    obtain ⟨hp, hn⟩ := ok
    have hx := isNode_mem hn
    by_cases h : inside f x pos
    · refine ⟨t, l, by rw [exec, move_throws R hp hn h]; rfl, ?_, ?_⟩
      · rw [step, Forest.move, if_pos (Or.inl h)]; exact R
      · dsimp only
        rw [step, Forest.move, if_pos (Or.inl h)]
        have := R.len_eq
        omega
    · have h' : ¬ inside f x p := by
        intro w
        by_cases hpos : pos = 0
        · exact safe ⟨hpos, w⟩
        · exact h (inside_kid R.ndf R.f0 hx hpos hp w)
      obtain ⟨t', e, R', hl⟩ := move_rep R hp hn h' h
      refine ⟨t', l, by rw [exec, e]; rfl, R', ?_⟩
      have := R'.len_eq
      dsimp only
      rw [step]
      omega
  | clear => exact ⟨T.empty, [], rfl, rep_empty, rfl⟩

theorem execAll_rep [Inhabited α] : ∀ (ops : List (Op α)) {t : T α} {f l} (m : Nat), Rep t f .nil l → t.len = m + 1 →
    f.size ≤ m → Valid f ops → SafeAll f ops →
    ∃ t' l', execAll t ops = some t' ∧ Rep t' (ops.foldl step f) .nil l' ∧ t'.len = peak f m ops + 1 := by
  intro ops
  induction ops with
  | nil => intro t f l m R hl _ _ _; exact ⟨t, l, rfl, R, hl⟩
  | cons op ops ih =>
    intro t f l m R hl hm hv hs
    obtain ⟨t1, l1, e1, R1, hl1⟩ := exec_rep R hv.1 hs.1
    have h1 := R1.len_eq
    obtain ⟨t2, l2, e2, R2, hl2⟩ := ih (peakStep f m op) R1 (by
        rw [hl1]
        cases op <;> simp only [peakStep] <;> omega) (by
        cases op <;> simp only [peakStep] <;> first | omega | simp [step, Forest.size, ids]) hv.2 hs.2
    refine ⟨t2, l2, ?_, R2, hl2⟩
    unfold execAll at e2 ⊢
    rw [List.foldlM_cons, e1]
    exact e2

theorem run_rep [Inhabited α] {ops : List (Op α)} (hv : Valid .nil ops) (hs : SafeAll .nil ops) :
    ∃ t l, execAll T.empty ops = some t ∧ Rep t (run ops) .nil l ∧ t.len = peak .nil 0 ops + 1 :=
  execAll_rep ops 0 rep_empty rfl (by simp [Forest.size, ids]) hv hs

theorem walk_spec {t : T α} {p : Nat} : ∀ (l : List (Nat × α)) (A : List Nat) (fuel : Nat),
    Chain t p (A ++ l.map Prod.fst) → (∀ e ∈ l, e.1 ≠ 0 ∧ e.1 < t.len ∧ t.val e.1 = e.2) → l.length ≤ fuel →
    walk t fuel ⟨p, (l.map Prod.fst).headD 0⟩ ⟨p, 0⟩ = some (l.map fun e => (⟨p, e.1⟩, e.2)) := by
  intro l
  induction l with
  | nil =>
    intro A fuel _ _ _
    rw [walk.eq_def]; dsimp only; rw [List.map_nil, List.headD_nil, if_pos rfl]; rfl
  | cons a l ih =>
    intro A fuel C h hf
    obtain ⟨h1, h2, h3⟩ := h a (by simp)
    cases fuel with
    | zero => simp at hf
    | succ fuel =>
      have hn := C.nx A a.1 (l.map Prod.fst) rfl
      rw [walk, List.map_cons, List.headD_cons, if_neg (by simp [h1]), It.incr, It.deref]
      dsimp only
      unfold T.rd
      rw [if_neg h1, if_neg h1, if_pos h2, if_pos h2, Option.map_some, Option.bind_some, Option.bind_some, hn,
        ih (A ++ [a.1]) fuel (by simpa using C) (fun x hx => h x (by simp [hx])) (by simp at hf; omega), h3]
      rfl

/-- The children of `p`, as a loop sees them. -/
theorem Rep.walk {t : T α} {f g l} (R : Rep t f g l) {p : Nat} (hp : p = 0 ∨ p ∈ ids f) :
    walk t t.len ⟨p, t.child p⟩ ⟨p, 0⟩ = some ((top (under f p)).map fun e => (⟨p, e.1⟩, e.2)) := by
  obtain ⟨h1, h2⟩ := under_spec R.ndf p
  have C := R.chain p hp
  rw [C.head, ← h1, ← top_roots]
  rw [← h1, ← top_roots] at C
  refine walk_spec _ [] _ C ?_ ?_
  · intro e he
    have hm := h2 e he
    have hi : e.1 ∈ ids f := by rw [ids_eq]; exact List.mem_map_of_mem hm
    exact ⟨by intro w; rw [w] at hi; exact R.f0 hi, (R.f_lt hi).2, R.val e (by simp [hm])⟩
  · have hnd := children_nodup R.ndf p
    rw [← h1, ← top_roots] at hnd
    have := len_le_of_lt (t := t) hnd (by
      intro x hx
      rw [top_roots, h1] at hx
      exact (R.f_lt (children_sub f p x hx)).2)
    simpa using this

theorem find_iff_mem {f : Forest α} (nd : (ids f).Nodup) {x : Nat} {v : α} (h : (x, v) ∈ nodes f) : ∃ k, find f x = some (v, k) := by
  have hx : x ∈ ids f := by rw [ids_eq]; exact List.mem_map_of_mem (f := Prod.fst) h
  obtain ⟨w, k, e⟩ := find_some hx
  have h2 := (find_nodes e).1
  have : v = w := by
    rw [ids_eq] at nd
    have := List.inj_on_of_nodup_map nd h h2 rfl
    simpa using this
  exact ⟨k, by rw [e, this]⟩

theorem freeNodes_spec {t : T α} {L : List Nat} (F : FL t L) (h : ∀ x ∈ L, x ≠ 0 ∧ x < t.len) : ∀ (l A : List Nat) (fuel : Nat),
    L = A ++ l → l.length ≤ fuel → freeNodes t fuel (l.headD 0) = some l := by
  intro l
  induction l with
  | nil => intro A fuel _ _; rw [freeNodes.eq_def]; rfl
  | cons a l ih =>
    intro A fuel e hf
    obtain ⟨h1, h2⟩ := h a (by rw [e]; simp)
    cases fuel with
    | zero => simp at hf
    | succ fuel =>
      rw [freeNodes, List.headD_cons, if_neg h1]
      unfold T.rd
      rw [if_pos h2, Option.bind_some, (F.links A a l e).1, ih (A ++ [a]) fuel (by rw [e]; simp) (by simp at hf; omega)]
      rfl

theorem Rep.freeNodes {t : T α} {f g l} (R : Rep t f g l) : freeNodes t t.len (t.next 0) = some l := by
  rw [R.fl.head]
  apply freeNodes_spec R.fl _ l [] t.len rfl
  · exact len_le_of_lt R.ndl (fun x hx => (R.l_lt hx).2)
  · intro x hx
    have := R.l_lt hx
    exact ⟨by omega, this.2⟩

theorem copyLoop_mono {s : Option (T α)} : ∀ (n m : Nat) (x : List (It × It)) (v : List It) (t r : T α),
    copyLoop s n x v t = some r → n ≤ m → copyLoop s m x v t = some r := by
  intro n
  induction n with
  | zero =>
    intro m x v t r h _
    cases v with
    | nil => rw [copyLoop] at h ⊢; exact h
    | cons a v => simp [copyLoop] at h
  | succ n ih =>
    intro m x v t r h hm
    cases v with
    | nil => rw [copyLoop] at h ⊢; exact h
    | cons a v =>
      obtain ⟨m, rfl⟩ : ∃ k, m = k + 1 := ⟨m - 1, by omega⟩
      rw [copyLoop] at h ⊢
      rw [Option.bind_eq_some_iff] at h ⊢
      obtain ⟨x', e1, h⟩ := h
      refine ⟨x', e1, ?_⟩
      cases x' with
      | nil => exact h
      | cons y x' =>
        dsimp only at h ⊢
        rw [Option.bind_eq_some_iff] at h ⊢
        obtain ⟨p, e2, h⟩ := h
        refine ⟨p, e2, ?_⟩
        rw [Option.bind_eq_some_iff] at h ⊢
        obtain ⟨w, e3, h⟩ := h
        refine ⟨w, e3, ?_⟩
        rw [Option.bind_eq_some_iff] at h ⊢
        obtain ⟨q, e4, h⟩ := h
        refine ⟨q, e4, ?_⟩
        rw [Option.bind_eq_some_iff] at h ⊢
        obtain ⟨b, e5, h⟩ := h
        refine ⟨b, e5, ?_⟩
        split at h
        · rename_i hb
          rw [if_pos hb]
          rw [Option.bind_eq_some_iff] at h ⊢
          obtain ⟨z, e6, h⟩ := h
          exact ⟨z, e6, ih m _ _ _ _ h (by omega)⟩
        · rename_i hb
          rw [if_neg hb]
          exact ih m _ _ _ _ h (by omega)

theorem copy_mono {s : Option (T α)} {n m : Nat} {t : T α} {pos sub : It} {r} (h : copy s n t pos sub = some r) (hm : n ≤ m) :
    copy s m t pos sub = some r := by
  unfold copy at h ⊢
  rw [Option.bind_eq_some_iff] at h ⊢
  obtain ⟨w, e1, h⟩ := h
  refine ⟨w, e1, ?_⟩
  rw [Option.bind_eq_some_iff] at h ⊢
  obtain ⟨q, e2, h⟩ := h
  refine ⟨q, e2, ?_⟩
  rw [Option.bind_eq_some_iff] at h ⊢
  obtain ⟨u, e3, h⟩ := h
  refine ⟨u, e3, ?_⟩
  rw [Option.map_eq_some_iff] at h ⊢
  obtain ⟨y, e4, h⟩ := h
  exact ⟨y, copyLoop_mono _ _ _ _ _ _ e4 hm, h⟩

/-- The bottom of a list of nodes each of which is the only child of the one before. -/
def vine (v : α) : Nat → Nat → Forest α
  | _, 0 => .nil
  | i, n + 1 => .cons i v (vine v (i + 1) n) .nil

theorem ids_vine (v : α) : ∀ (n i : Nat), ids (vine v i n) = List.range' i n := by
  intro n
  induction n with
  | zero => intro i; rfl
  | succ n ih => intro i; rw [vine, ids, ih, ids, List.append_nil, List.range'_succ]

theorem vine_insert (v : α) (w : α) : ∀ (n i : Nat), 0 < i →
    insertUnder (i + n) 0 (i + n + 1) v .nil (vine v i (n + 1)) = vine v i (n + 2) := by
  intro n
  induction n with
  | zero =>
    intro i hi
    simp [vine, insertUnder, insertBefore]
  | succ n ih =>
    intro i hi
    rw [vine, insertUnder, if_neg (by omega)]
    have := ih (i + 1) (by omega)
    rw [show i + (n + 1) = i + 1 + n by omega, this]
    rfl

theorem vine_kids (v : α) : ∀ (n i : Nat), kidsOf (vine v i (n + 2)) (i + n) = [i + n + 1] := by
  intro n
  induction n with
  | zero => intro i; simp [vine, kidsOf, roots]
  | succ n ih =>
    intro i
    rw [vine, kidsOf, if_neg (by omega), show i + (n + 1) = i + 1 + n by omega, ih (i + 1)]
    rfl

theorem vine_last (v : α) : ∀ (n i : Nat), kidsOf (vine v i (n + 1)) (i + n) = [] := by
  intro n
  induction n with
  | zero => intro i; simp [vine, kidsOf, roots]
  | succ n ih =>
    intro i
    rw [vine, kidsOf, if_neg (by omega), show i + (n + 1) = i + 1 + n by omega, ih (i + 1)]
    rfl

theorem fresh_vine (v : α) (n : Nat) : fresh (vine v 1 n) = n + 1 := by
  symm
  apply fresh_eq (by omega)
  · rw [ids_vine, List.mem_range'_1]; omega
  · intro m h1 h2
    rw [ids_vine, List.mem_range'_1]; omega

/-- Copying a node to its own end never comes to an end: the copies are copied. -/
theorem copyLoop_self {v : α} : ∀ (fuel n : Nat) (t : T α) (l : List Nat) (a : Nat) (X : List (It × It)),
    Rep t (vine v 1 (n + 2)) .nil l → (n = 0 → a = 0) → (n ≠ 0 → a = n) →
    copyLoop none fuel ((⟨n + 1, n + 2⟩, ⟨a, n + 1⟩) :: X) [⟨n + 1, n + 2⟩] t = none := by
  intro fuel
  induction fuel with
  | zero => intros; rfl
  | succ fuel ih =>
    intro n t l a X R h1 h2
    have hm : ∀ i, 1 ≤ i → i ≤ n + 2 → i ∈ ids (vine v 1 (n + 2)) := by
      intro i h1 h2
      rw [ids_vine, List.mem_range'_1]; omega
    have hlt : ∀ i, 1 ≤ i → i ≤ n + 2 → i < t.len := fun i h1 h2 => (R.f_lt (hm i h1 h2)).2
    have hpar : t.parent (n + 1) = a := by
      by_cases h : n = 0
      · subst h
        rw [h1 rfl]
        exact R.parent_eq ⟨Or.inl rfl, by simp [children, vine, roots]⟩
      · rw [h2 h]
        refine R.parent_eq ⟨Or.inr (hm n (by omega) (by omega)), ?_⟩
        rw [children, if_neg h]
        have : ∀ (m i : Nat), kidsOf (vine v i (m + 3)) (i + m) = [i + m + 1] := by
          intro m
          induction m with
          | zero => intro i; simp [vine, kidsOf, roots]
          | succ m ih =>
            intro i
            rw [vine, kidsOf, if_neg (by omega), show i + (m + 1) = i + 1 + m by omega, ih (i + 1)]
            rfl
        obtain ⟨m, rfl⟩ : ∃ m, n = m + 1 := ⟨n - 1, by omega⟩
        have := this m 1
        rw [show 1 + m = m + 1 by omega] at this
        rw [this]; simp
    rw [copyLoop]
    have hup : popParent t ⟨n + 1, n + 2⟩ ((⟨n + 1, n + 2⟩, ⟨a, n + 1⟩) :: X) = some ((⟨n + 1, n + 2⟩, ⟨a, n + 1⟩) :: X) := by
      unfold popParent It.up T.rd
      dsimp only
      rw [if_neg (by omega), if_pos (hlt (n + 1) (by omega) (by omega)), hpar]
      simp
    rw [Option.getD_none, hup, Option.bind_some]
    dsimp only
    have hfin : (⟨n + 1, n + 2⟩ : It).fin = some ⟨n + 2, 0⟩ := by simp [It.fin]
    obtain ⟨w, hw⟩ : ∃ w, (⟨n + 1, n + 2⟩ : It).deref t = some w := by
      unfold It.deref T.rd
      dsimp only
      rw [if_neg (by omega), if_pos (hlt (n + 2) (by omega) (by omega))]
      exact ⟨_, rfl⟩
    have hwv : w = v := by
      have : (n + 2, v) ∈ nodes (vine v 1 (n + 2)) := by
        have : ∀ (m i : Nat), (i + m, v) ∈ nodes (vine v i (m + 1)) := by
          intro m
          induction m with
          | zero => intro i; simp [vine, nodes]
          | succ m ih =>
            intro i
            have := ih (i + 1)
            rw [vine, nodes, show i + (m + 1) = i + 1 + m by omega]
            simp [this]
        have := this (n + 1) 1
        rwa [show 1 + (n + 1) = n + 2 by omega] at this
      have hv := R.val _ (List.mem_append.mpr (Or.inl this))
      unfold It.deref T.rd at hw
      dsimp only at hw
      rw [if_neg (by omega), if_pos (hlt (n + 2) (by omega) (by omega)), hv] at hw
      simpa using hw.symm
    subst hwv
    have hpos : IsPos (vine w 1 (n + 2)) (n + 2) 0 := ⟨Or.inr (hm (n + 2) (by omega) (by omega)), Or.inl rfl⟩
    obtain ⟨t1, l1, e1, R1, _⟩ := insert_rep R hpos w
    rw [fresh_vine] at e1 R1
    have hvi := vine_insert w w (n + 1) 1 (by omega)
    rw [show 1 + (n + 1) = n + 2 by omega] at hvi
    have hins : Forest.insert (n + 2) 0 (n + 2 + 1) w .nil (vine w 1 (n + 2)) = vine w 1 (n + 3) := by
      unfold Forest.insert
      rw [if_neg (by omega), hvi]
    rw [hins] at R1
    rw [hfin, Option.bind_some, hw, Option.bind_some, e1, Option.bind_some]
    dsimp only
    have hmem : n + 2 ∈ ids (vine w 1 (n + 3)) := by rw [ids_vine, List.mem_range'_1]; omega
    have hkid := vine_kids w (n + 1) 1
    rw [show 1 + (n + 1) = n + 2 by omega] at hkid
    have hbeg : (⟨n + 1, n + 2⟩ : It).begin t1 = some ⟨n + 2, n + 3⟩ := by
      unfold It.begin T.rd
      dsimp only
      rw [if_neg (by omega), if_pos (R1.f_lt hmem).2, (R1.fhung.chain _ hmem).head, hkid]
      rfl
    rw [Option.getD_none, hbeg, Option.bind_some]
    dsimp only
    rw [if_pos (by omega), pushChildren_spec R1.fhung hmem, hkid, Option.bind_some, List.map_cons, List.map_nil]
    exact ih (n + 1) t1 l1 (n + 1) _ R1 (by omega) (fun _ => rfl)

theorem copy_self (v : α) (fuel : Nat) {t : T α} {l} (R : Rep t (vine v 1 1) .nil l) :
    copy none fuel t ⟨1, 0⟩ ⟨0, 1⟩ = none := by
  have hm : 1 ∈ ids (vine v 1 1) := by simp [vine, ids]
  have hpos : IsPos (vine v 1 1) 1 0 := ⟨Or.inr hm, Or.inl rfl⟩
  unfold copy
  have hder : (⟨0, 1⟩ : It).deref t = some v := by
    unfold It.deref T.rd
    dsimp only
    rw [if_neg (by omega), if_pos (R.f_lt hm).2, R.val (1, v) (by simp [vine, nodes])]
  obtain ⟨t1, l1, e1, R1, _⟩ := insert_rep R hpos v
  rw [fresh_vine] at e1 R1
  have hins : Forest.insert 1 0 (1 + 1) v .nil (vine v 1 1) = vine v 1 2 := by
    unfold Forest.insert
    rw [if_neg (by omega)]
    exact vine_insert v v 0 1 (by omega)
  rw [hins] at R1
  rw [Option.getD_none, hder, Option.bind_some, e1, Option.bind_some]
  dsimp only
  have hm1 : 1 ∈ ids (vine v 1 2) := by simp [vine, ids]
  rw [Option.getD_none, pushChildren_spec R1.fhung hm1, show kidsOf (vine v 1 2) 1 = [2] from vine_kids v 0 1,
    Option.bind_some, List.map_cons, List.map_nil, List.append_nil]
  rw [copyLoop_self fuel 0 t1 l1 0 [] R1 (fun _ => rfl) (fun h => absurd rfl h)]
  rfl

theorem levels_perm : ∀ (n : Nat) (f : Forest α), f.size ≤ n → (levels n f).Perm (ids f) := by
  have hone : ∀ f : Forest α, (ids f).Perm (roots f ++ ids (nextLevel f)) := by
    intro f
    induction f with
    | nil => simp [ids, roots, nextLevel]
    | cons i v k s _ hs =>
      rw [ids, roots, nextLevel, ids_append, List.perm_iff_count]
      intro a
      have := List.perm_iff_count.mp hs a
      simp only [List.count_cons, List.count_append] at this ⊢
      omega
  intro n
  induction n with
  | zero =>
    intro f h
    cases f with
    | nil => simp [levels, ids]
    | cons i v k s => rw [size_cons] at h; omega
  | succ n ih =>
    intro f h
    rw [levels]
    refine List.Perm.trans ?_ (hone f).symm
    apply List.Perm.append_left
    cases f with
    | nil => rw [nextLevel, levels_nil]; simp [ids]
    | cons i v k s =>
      apply ih
      have := size_nextLevel (Forest.cons i v k s)
      simp [roots] at this
      omega

end Verif.Proof.Tree
