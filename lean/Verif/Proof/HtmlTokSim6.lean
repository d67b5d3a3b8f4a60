import Verif.Proof.HtmlTokSim5
/-
The states that look ahead or flush, against the standard; whole runs.
-/
namespace Verif.Proof.HtmlTok
open Verif.Model.HtmlTok Verif.Model.HtmlInput Verif.Model.Infra Verif.Proof.HtmlInput
variable {σ : Type}

/-- Flushing a reference and going on in another state. -/
theorem flush_core {S : Sink σ} {m m1 : M σ} {x : Spec.HtmlTok.C σ} (h : Core m x) (hf : flushRef S m = some m1) (st : St)
    (hst : isRet st = true ∨ st = .ambiguousAmp) :
    Core (go st m1) { Spec.HtmlTok.flushRef (envOf S) x with st := stOf st } ∧
      (Marks (cur m).attrs → Marks (cur (go st m1)).attrs) ∧
      (Spec.HtmlTok.flushRef (envOf S) x).rest = x.rest ∧ (Spec.HtmlTok.flushRef (envOf S) x).ended = x.ended ∧
      (Spec.HtmlTok.flushRef (envOf S) x).ret = x.ret := by
  obtain ⟨h1, h2, h3, h4, h5, h6, h7, h8, h9, h10, h11, h12, h13, h14⟩ := h
  have hn : ¬ (st = .publicIdDq ∨ st = .publicIdSq) ∧ ¬ (st = .systemIdDq ∨ st = .systemIdSq) := by
    revert hst; cases st <;> simp [isRet]
  have hin : Spec.HtmlTok.inAttr x = inAttr m := inAttr_eq h2
  rw [flush_eq, hin]
  rcases flushRef_some hf with ⟨hi, a, d, rfl, g3, g4⟩ | ⟨hi, rfl⟩
  · rw [if_pos hi]
    refine ⟨⟨rfl, h2, h3, h4, h5, h6, h7, ?_, h9, h10, h11, h12, fun q => absurd q hn.1, fun q => absurd q hn.2⟩, g4, rfl, rfl, rfl⟩
    show addVal x.tmp x.tag = _
    rw [h3, h8, ← g3]
    rfl
  · rw [hi]
    refine ⟨⟨rfl, h2, h3, h4, h5, h6, h7, h8, h9, h10, h11, ?_, fun q => absurd q hn.1, fun q => absurd q hn.2⟩, id, rfl, rfl, rfl⟩
    show outs S x.tmp x.sink = _
    rw [h3, h12]
    rfl

theorem lookup_none (n : Nat) (h : n < 0x80 ∨ 0x9F < n) : codeTbl.lookup n = none := by
  rw [List.lookup_eq_none_iff]
  intro p hp
  have : ∀ p ∈ codeTbl, 0x80 ≤ p.1 ∧ p.1 ≤ 0x9F := by decide
  have := this p hp
  simp only [bne_iff_ne, ne_eq]
  omega

theorem codePoint_eq (n : Nat) : codePoint n = Spec.HtmlTok.refCode n := by
  unfold codePoint Spec.HtmlTok.refCode
  have hs : isSurrogate n = decide (0xD800 ≤ n ∧ n ≤ 0xDFFF) := by
    unfold isSurrogate; rw [Bool.eq_iff_iff]; simp
  rw [hs]
  by_cases h : n < 0x80 ∨ 0x9F < n
  · have e : Spec.HtmlTok.codes.lookup n = none := lookup_none n h
    rw [lookup_none n h, e]
    dsimp only [Option.getD]
    split_ifs <;> first | rfl | omega | (simp only [decide_eq_true_eq] at *; omega)
  · have hh : ¬ (n = 0 ∨ 0x10FFFF < n ∨ (0xD800 ≤ n ∧ n ≤ 0xDFFF)) := by omega
    rw [if_neg hh]
    have e : Spec.HtmlTok.codes.lookup n = codeTbl.lookup n := rfl
    rw [e]
    dsimp only
    rw [if_neg (by omega : ¬ n = 0), if_neg (by omega : ¬ 0x10FFFF < n)]
    cases codeTbl.lookup n with
    | some d => rfl
    | none => simp; omega

theorem refCode_lt (n : Nat) : Spec.HtmlTok.refCode n < 4294967296 := by
  unfold Spec.HtmlTok.refCode
  split_ifs with h
  · omega
  · cases e : Spec.HtmlTok.codes.lookup n with
    | none => simp; omega
    | some d =>
      obtain ⟨p, hp, rfl⟩ : ∃ p ∈ Spec.HtmlTok.codes, p.2 = d := by
        have := List.lookup_eq_some_iff.mp e
        obtain ⟨l1, l2, h1, _⟩ := this
        exact ⟨(n, d), by rw [h1]; simp, rfl⟩
      have : ∀ p ∈ Spec.HtmlTok.codes, p.2 < 0x10000 := by decide
      have := this p hp
      simp; omega

theorem numeric_sim (S : Sink σ) (refs : Spec.HtmlTok.Refs) (l : List Nat) (m m1 : M σ) (x : Spec.HtmlTok.C σ)
    (h : Sim l m x) (hi : Inv m) (hf : m.inp.eofConsumed = false) (ht : ¬ Trouble S x) (hst : m.st = .numericEnd)
    (hs : onNumericEnd S m = some m1) : Sim l m1 (Spec.HtmlTok.step (envOf S) refs x) := by
  have hxs : x.st = .numericEnd := by rw [h.core.st, hst]; rfl
  have hstep : Spec.HtmlTok.step (envOf S) refs x = Spec.HtmlTok.numeric (envOf S) x := by
    unfold Spec.HtmlTok.step; rw [h.ended, hf, hxs]; rfl
  rw [hstep]
  have hlt : x.code < 4294967296 := by
    by_contra hh
    exact ht (Or.inr (Or.inr (Or.inr ⟨hxs, by omega⟩)))
  have hcode : m.code = x.code := by rw [h.core.code, Nat.mod_eq_of_lt hlt]
  obtain ⟨e, h1, h2, _⟩ := hi.ret (by rw [hst]; rfl)
  unfold onNumericEnd at hs
  rw [hcode, codePoint_eq] at hs
  dsimp only at hs
  have hc : Core { m with code := Spec.HtmlTok.refCode x.code, tmp := [Spec.HtmlTok.refCode x.code] }
      { x with code := Spec.HtmlTok.refCode x.code, tmp := [Spec.HtmlTok.refCode x.code] } := by
    have c := h.core
    exact ⟨c.st, c.ret, rfl, c.dtName, c.pub, c.sys, c.quirks, c.tag, c.com, c.last, (Nat.mod_eq_of_lt (refCode_lt _)).symm, c.sink,
      c.pubSome, c.sysSome⟩
  cases hfl : flushRef S { m with code := Spec.HtmlTok.refCode x.code, tmp := [Spec.HtmlTok.refCode x.code] } with
  | none => rw [hfl] at hs; cases hs
  | some m2 =>
    obtain ⟨a1, a2, a3, a4, a5⟩ := flush_core hc hfl e (Or.inl h2)
    obtain ⟨_, e1, k1⟩ := flushRef_keeps S { m with code := Spec.HtmlTok.refCode x.code, tmp := [Spec.HtmlTok.refCode x.code] }
      (by obtain ⟨e', q1, q2, q3⟩ := hi.ret (by rw [hst]; rfl); exact ⟨e', q1, q2, q3⟩)
    rw [hfl] at e1
    cases e1
    rw [hfl] at hs
    dsimp only at hs
    rw [k1.ret] at hs
    dsimp only at hs
    rw [h1] at hs
    cases hs
    have hret : (Spec.HtmlTok.flushRef (envOf S) { x with code := Spec.HtmlTok.refCode x.code, tmp := [Spec.HtmlTok.refCode x.code] }).ret
        = stOf e := by rw [a5]; show x.ret = _; rw [h.core.ret, h1]; rfl
    have hnum : Spec.HtmlTok.numeric (envOf S) x = { Spec.HtmlTok.flushRef (envOf S)
        { x with code := Spec.HtmlTok.refCode x.code, tmp := [Spec.HtmlTok.refCode x.code] } with st := stOf e } := by
      unfold Spec.HtmlTok.numeric
      dsimp only
      rw [hret]
    rw [hnum]
    refine ⟨a1, ?_, ?_, ?_, ?_⟩
    · show (Spec.HtmlTok.flushRef _ _).rest = m2.inp.c ++ l
      rw [a3, k1.inp]; exact h.rest
    · show m2.inp.eof = true → _
      rw [k1.inp]; exact h.eofl
    · show (Spec.HtmlTok.flushRef _ _).ended = m2.inp.eofConsumed
      rw [a4, k1.inp]; exact h.ended
    · show (m2.inp.c = [] ∧ m2.inp.eof = true) ∨ _
      rw [k1.inp]
      rcases h.marks with q | q
      · exact Or.inl q
      · right
        have q' : Marks (cur m).attrs := by simpa [MarksIn, hst] using q
        have hne : (go e m2).st ≠ .attrName := by intro hh; have : e = .attrName := hh; rw [this] at h2; cases h2
        simpa [MarksIn, hne] using a2 q'

theorem lowered_eq (c : Nat) : Spec.HtmlTok.lowered c = foldCase true c := by
  unfold Spec.HtmlTok.lowered foldCase Spec.HtmlTok.isUpper isAsciiUpperAlpha
  simp

theorem matchLoop_take (ci : Bool) (label cs : List Nat) :
    matchLoop ci label cs = ((cs.take label.length).map (foldCase ci) == label) := by
  induction label generalizing cs with
  | nil => simp [matchLoop]
  | cons a ls ih =>
    cases cs with
    | nil => simp [matchLoop]
    | cons c cs =>
      simp only [matchLoop, List.length_cons, List.take_succ_cons, List.map_cons]
      by_cases h : foldCase ci c = a
      · rw [if_neg (by simpa using h), ih, h]; simp
      · rw [if_pos (by simpa using h)]
        rw [Bool.eq_iff_iff]; simp [h]

theorem matchLoop_ci (label cs : List Nat) :
    matchLoop true label cs = ((cs.take label.length).map Spec.HtmlTok.lowered == label) := by
  rw [matchLoop_take, show Spec.HtmlTok.lowered = foldCase true from funext lowered_eq]

theorem matchLoop_cs (label cs : List Nat) : matchLoop false label cs = (cs.take label.length == label) := by
  rw [matchLoop_take, show foldCase false = id from funext fun c => by simp [foldCase]]
  simp

/-- Enough has been read, or there is no more. -/
theorem filled {m : M σ} {x : Spec.HtmlTok.C σ} {l : List Nat} (h : Sim l m x) {n : Nat} (hf : fill m.inp n = true) :
    n ≤ m.inp.c.length ∨ l = [] := by
  unfold fill at hf
  rcases Bool.or_eq_true_iff.mp hf with q | q
  · exact Or.inr (h.eofl q)
  · left; have : m.inp.c.length = n := by simpa using q
    omega

theorem take_filled {b l : List Nat} {n : Nat} (h : n ≤ b.length ∨ l = []) {k : Nat} (hk : k ≤ n) : (b ++ l).take k = b.take k := by
  rcases h with h | rfl
  · exact List.take_append_of_le_length (by omega)
  · simp

theorem drop_filled {b : List Nat} (l : List Nat) {k : Nat} (hk : k ≤ b.length) : (b ++ l).drop k = b.drop k ++ l :=
  List.drop_append_of_le_length hk

theorem markup_sim (S : Sink σ) (refs : Spec.HtmlTok.Refs) (l : List Nat) (m m1 : M σ) (x : Spec.HtmlTok.C σ)
    (h : Sim l m x) (hr : Ready m) (ht : ¬ Trouble S x) (hst : m.st = .markupDecl)
    (hs : markupDecl S m = some m1) : Sim l m1 (Spec.HtmlTok.step (envOf S) refs x) := by
  have hxs : x.st = .markupDecl := by rw [h.core.st, hst]; rfl
  have hstep : Spec.HtmlTok.step (envOf S) refs x = Spec.HtmlTok.markup (envOf S) x := by
    unfold Spec.HtmlTok.step; rw [h.ended, hr.fresh, hxs]; rfl
  rw [hstep]
  have hfi : fill m.inp 7 = true := by
    by_contra hh
    exact hr.free (Or.inl ⟨hst, by simpa using hh⟩)
  have hen := filled h hfi
  have t2 : x.rest.take 2 = m.inp.c.take 2 := by rw [h.rest]; exact take_filled hen (by omega)
  have t7 : x.rest.take 7 = m.inp.c.take 7 := by rw [h.rest]; exact take_filled hen (by omega)
  have d1 : matchLoop false dashStr m.inp.c = decide (x.rest.take 2 = [0x2D, 0x2D]) := by
    rw [matchLoop_cs, t2, Bool.eq_iff_iff]; simp [dashStr]
  have d2 : matchLoop true doctypeStr m.inp.c = Spec.HtmlTok.nextIs x [0x64, 0x6F, 0x63, 0x74, 0x79, 0x70, 0x65] := by
    rw [matchLoop_ci]; unfold Spec.HtmlTok.nextIs
    rw [show ([0x64, 0x6F, 0x63, 0x74, 0x79, 0x70, 0x65] : List Nat).length = 7 from rfl, t7]; rfl
  have d3 : matchLoop false cdataStr m.inp.c = decide (x.rest.take 7 = [0x5B, 0x43, 0x44, 0x41, 0x54, 0x41, 0x5B]) := by
    rw [matchLoop_cs, t7, Bool.eq_iff_iff]; simp [cdataStr]
  have c := h.core
  have hmk : ∀ st : St, st ≠ .attrName → MarksIn m.st (cur m).attrs → MarksIn st (cur m).attrs := by
    intro st hne q
    simpa [MarksIn, hst, hne] using q
  unfold Spec.HtmlTok.markup
  rcases markup_cases S m with ⟨cu, g1, e⟩ | ⟨cu, g1, g2, e⟩ | ⟨cu, g1, g2, g3, e⟩ | ⟨g1, g2, g3, e⟩
  · have hl : 2 ≤ m.inp.c.length := matchLoop_length _ _ _ g1
    rw [e] at hs; cases hs
    rw [d1, decide_eq_true_eq] at g1
    rw [if_pos g1]
    refine ⟨⟨rfl, c.ret, c.tmp, c.dtName, c.pub, c.sys, c.quirks, c.tag, rfl, c.last, c.code, c.sink, fun q => ?_, fun q => ?_⟩,
      ?_, h.eofl, h.ended, ?_⟩
    · rcases q with q | q <;> cases q
    · rcases q with q | q <;> cases q
    · show x.rest.drop 2 = _; rw [h.rest]; exact drop_filled l hl
    · rcases h.marks with q | q
      · left; refine ⟨?_, q.2⟩; show m.inp.c.drop 2 = []; rw [q.1]; rfl
      · exact Or.inr (hmk _ (by simp [go]) q)
  · have hl : 7 ≤ m.inp.c.length := matchLoop_length _ _ _ g2
    rw [e] at hs; cases hs
    rw [d1, decide_eq_false_iff_not] at g1
    rw [d2] at g2
    rw [if_neg g1, if_pos g2]
    refine ⟨⟨rfl, c.ret, c.tmp, c.dtName, c.pub, c.sys, c.quirks, c.tag, c.com, c.last, c.code, c.sink, fun q => ?_, fun q => ?_⟩,
      ?_, h.eofl, h.ended, ?_⟩
    · rcases q with q | q <;> cases q
    · rcases q with q | q <;> cases q
    · show x.rest.drop 7 = _; rw [h.rest]; exact drop_filled l hl
    · rcases h.marks with q | q
      · left; refine ⟨?_, q.2⟩; show m.inp.c.drop 7 = []; rw [q.1]; rfl
      · exact Or.inr (hmk _ (by simp [go]) q)
  · have hl : 7 ≤ m.inp.c.length := matchLoop_length _ _ _ g3
    rw [d1, decide_eq_false_iff_not] at g1
    rw [d2] at g2
    rw [d3, decide_eq_true_eq] at g3
    have hnode : S.node x.sink = none := by
      by_contra hh
      exact ht (Or.inr (Or.inr (Or.inl ⟨hxs, g3, hh⟩)))
    have hnode' : S.node m.sink = none := by rw [← c.sink]; exact hnode
    have hfor : (envOf S).foreign x.sink = false := by simp [envOf, hnode]
    rw [e, hnode', if_neg (by simp)] at hs; cases hs
    rw [if_neg g1, if_neg (by rw [g2]; simp), if_pos g3, hfor]
    refine ⟨⟨rfl, c.ret, c.tmp, c.dtName, c.pub, c.sys, c.quirks, c.tag, rfl, c.last, c.code, c.sink, fun q => ?_, fun q => ?_⟩,
      ?_, h.eofl, h.ended, ?_⟩
    · rcases q with q | q <;> cases q
    · rcases q with q | q <;> cases q
    · show x.rest.drop 7 = _; rw [h.rest]; exact drop_filled l hl
    · rcases h.marks with q | q
      · left; refine ⟨?_, q.2⟩; show m.inp.c.drop 7 = []; rw [q.1]; rfl
      · exact Or.inr (hmk _ (by simp [go]) q)
  · rw [d1, decide_eq_false_iff_not] at g1
    rw [d2] at g2
    rw [d3, decide_eq_false_iff_not] at g3
    rw [e] at hs; cases hs
    rw [if_neg g1, if_neg (by rw [g2]; simp), if_neg g3]
    refine ⟨⟨rfl, c.ret, c.tmp, c.dtName, c.pub, c.sys, c.quirks, c.tag, rfl, c.last, c.code, c.sink, fun q => ?_, fun q => ?_⟩,
      h.rest, h.eofl, h.ended, ?_⟩
    · rcases q with q | q <;> cases q
    · rcases q with q | q <;> cases q
    · rcases h.marks with q | q
      · exact Or.inl q
      · exact Or.inr (hmk _ (by simp [go]) q)

/-- The erased DOCTYPE token is that of the model. -/
theorem doctype_eq {m : M σ} {x : Spec.HtmlTok.C σ} (c : Core m x) (q : Bool) :
    erase (.doctype x.dtName x.pub x.sys q) = .doctype { m.dt with quirks := q } := by
  show Tok.doctype ⟨x.dtName, x.pub.getD [], x.sys.getD [], q⟩ = _
  rw [c.dtName, c.pub, c.sys]

theorem afterName_sim (S : Sink σ) (refs : Spec.HtmlTok.Refs) (find : Find) (l : List Nat) (m m1 : M σ) (x : Spec.HtmlTok.C σ)
    (h : Sim l m x) (hr : Ready m) (hst : m.st = .afterDoctypeName)
    (hs : mstep S find m = some m1) : Sim l m1 (Spec.HtmlTok.step (envOf S) refs x) := by
  have hxs : x.st = .afterDoctypeName := by rw [h.core.st, hst]; rfl
  have hstep : Spec.HtmlTok.step (envOf S) refs x = Spec.HtmlTok.afterName (envOf S) x := by
    unfold Spec.HtmlTok.step; rw [h.ended, hr.fresh, hxs]; rfl
  rw [hstep]
  have hfi : fill m.inp 6 = true := by
    by_contra hh
    exact hr.free (Or.inr (Or.inl ⟨hst, by simpa using hh⟩))
  have hen := filled h hfi
  have t6 : x.rest.take 6 = m.inp.c.take 6 := by rw [h.rest]; exact take_filled hen (by omega)
  have c := h.core
  unfold mstep at hs
  rw [hst] at hs
  dsimp only at hs
  cases hb : m.inp.c with
  | nil =>
    have he : m.inp.eof = true := by
      rcases hr.can with hc | hc
      · exact absurd hb hc
      · exact hc
    have hl := h.eofl he
    subst hl
    have hx : x.rest = [] := by rw [h.rest, hb]; rfl
    rw [next_none m hb he] at hs
    simp only [afterDoctypeName, Option.some.injEq] at hs
    subst hs
    unfold Spec.HtmlTok.afterName
    rw [hx]
    dsimp only
    refine ⟨⟨?_, c.ret, c.tmp, c.dtName, c.pub, c.sys, rfl, c.tag, c.com, c.last, c.code, ?_, fun q => ?_, fun q => ?_⟩,
      ?_, fun _ => rfl, rfl, Or.inl ⟨hb, he⟩⟩
    · show x.st = _; rw [hxs]; show _ = stOf m.st; rw [hst]; rfl
    · show S.emit (S.emit x.sink (erase _)) (erase _) = _
      rw [doctype_eq c, c.sink]; rfl
    · have q' : m.st = .publicIdDq ∨ m.st = .publicIdSq := q
      rw [hst] at q'; rcases q' with q | q <;> cases q
    · have q' : m.st = .systemIdDq ∨ m.st = .systemIdSq := q
      rw [hst] at q'; rcases q' with q | q <;> cases q
    · show ([] : List Nat) = m.inp.c ++ []; rw [hb]; rfl
  | cons a r =>
    have hx : x.rest = a :: (r ++ l) := by rw [h.rest, hb]; rfl
    have hmk : Marks (cur m).attrs := by
      rcases h.marks with q | q
      · rw [hb] at q; exact absurd q.1 (by simp)
      · simpa [MarksIn, hst] using q
    rw [next_some m a r hb hr.fresh] at hs
    dsimp only at hs
    have d : ∀ (s : List Nat), 1 ≤ s.length → s.length = 6 →
        matchLabel ({ m.inp with c := r, cur := a } : Stream) s true true = some (Spec.HtmlTok.nextIs x s) := by
      intro s h1 h6
      cases s with
      | nil => cases h1
      | cons b s =>
        have : matchLabel ({ m.inp with c := r, cur := a } : Stream) (b :: s) true true = some (matchLoop true (b :: s) (a :: r)) := by
          unfold matchLabel
          simp only [if_true, matchLoop]
          split_ifs <;> rfl
        rw [this, matchLoop_ci]
        unfold Spec.HtmlTok.nextIs
        rw [h6, t6, hb]
    have dp := d publicStr (by decide) (by decide)
    have ds := d systemStr (by decide) (by decide)
    have hw : [0x9, 0xA, 0xC, 0x20].contains a = ws a := by
      simp only [ws, List.contains_eq_any_beq, List.any_cons, List.any_nil, Bool.or_false, Bool.or_assoc]
    unfold Spec.HtmlTok.afterName
    rw [hx]
    dsimp only
    rw [hw]
    have hlen : ∀ k, k ≤ r.length → x.rest.drop (k + 1) = r.drop k ++ l := by
      intro k hk
      rw [hx, List.drop_succ_cons]
      exact drop_filled l hk
    have hxd : (a :: (r ++ l)).drop 6 = x.rest.drop 6 := by rw [hx]
    have c' := c.inp' { m.inp with c := r, cur := a }
    rcases afterName_cases S { m with inp := { m.inp with c := r, cur := a } } a with
      ⟨g1, e⟩ | ⟨g1, g2, e⟩ | ⟨cu, g1, g2, g3, g4, e⟩ | ⟨cu, g1, g2, g3, g4, g5, e⟩ | ⟨g1, g2, g3, g4, e⟩
    · rw [e] at hs
      simp only [Option.some.injEq] at hs
      subst hs
      rw [if_pos g1]
      exact ⟨⟨c.st, c.ret, c.tmp, c.dtName, c.pub, c.sys, c.quirks, c.tag, c.com, c.last, c.code, c.sink, c.pubSome, c.sysSome⟩,
        rfl, h.eofl, h.ended, Or.inr (by show MarksIn m.st (cur m).attrs; simpa [MarksIn, hst] using hmk)⟩
    · rw [e] at hs
      simp only [Option.some.injEq] at hs
      subst hs
      rw [g1, if_neg (by simp), if_pos g2]
      refine ⟨⟨rfl, c.ret, c.tmp, c.dtName, c.pub, c.sys, c.quirks, c.tag, c.com, c.last, c.code, ?_, fun q => ?_, fun q => ?_⟩,
        rfl, h.eofl, h.ended, Or.inr hmk⟩
      · show S.emit x.sink (erase (.doctype x.dtName x.pub x.sys x.quirks)) = S.emit m.sink (.doctype m.dt)
        rw [doctype_eq c, c.sink, c.quirks]
      · rcases q with q | q <;> cases q
      · rcases q with q | q <;> cases q
    · rw [e] at hs
      simp only [Option.some.injEq] at hs
      subst hs
      have g3' : Spec.HtmlTok.nextIs x publicStr = true := by
        have := dp.symm.trans g3; simpa using this
      rw [g1, if_neg (by simp), if_neg g2, if_pos (by exact g3')]
      refine ⟨⟨rfl, c.ret, c.tmp, c.dtName, c.pub, c.sys, c.quirks, c.tag, c.com, c.last, c.code, c.sink, fun q => ?_, fun q => ?_⟩,
        ?_, h.eofl, h.ended, Or.inr hmk⟩
      · rcases q with q | q <;> cases q
      · rcases q with q | q <;> cases q
      · show (a :: (r ++ l)).drop 6 = r.drop 5 ++ l
        rw [hxd]; exact hlen 5 g4
    · rw [e] at hs
      simp only [Option.some.injEq] at hs
      subst hs
      have g3' : Spec.HtmlTok.nextIs x publicStr = false := by
        have := dp.symm.trans g3; simpa using this
      have g4' : Spec.HtmlTok.nextIs x systemStr = true := by
        have := ds.symm.trans g4; simpa using this
      rw [g1, if_neg (by simp), if_neg g2, if_neg (by show ¬ Spec.HtmlTok.nextIs x publicStr = true; rw [g3']; simp),
        if_pos (by exact g4')]
      refine ⟨⟨rfl, c.ret, c.tmp, c.dtName, c.pub, c.sys, c.quirks, c.tag, c.com, c.last, c.code, c.sink, fun q => ?_, fun q => ?_⟩,
        ?_, h.eofl, h.ended, Or.inr hmk⟩
      · rcases q with q | q <;> cases q
      · rcases q with q | q <;> cases q
      · show (a :: (r ++ l)).drop 6 = r.drop 5 ++ l
        rw [hxd]; exact hlen 5 g5
    · rw [e] at hs
      simp only [Option.some.injEq] at hs
      subst hs
      have g3' : Spec.HtmlTok.nextIs x publicStr = false := by
        have := dp.symm.trans g3; simpa using this
      have g4' : Spec.HtmlTok.nextIs x systemStr = false := by
        have := ds.symm.trans g4; simpa using this
      rw [g1, if_neg (by simp), if_neg g2, if_neg (by show ¬ Spec.HtmlTok.nextIs x publicStr = true; rw [g3']; simp),
        if_neg (by show ¬ Spec.HtmlTok.nextIs x systemStr = true; rw [g4']; simp)]
      have hre : reconsume (go .bogusDoctype (quirks ({ m with inp := { m.inp with c := r, cur := a } } : M σ))).inp
          = { m.inp with c := a :: r, cur := a } := by
        simp [reconsume, go, quirks, hr.fresh]
      refine ⟨⟨rfl, c.ret, c.tmp, c.dtName, c.pub, c.sys, rfl, c.tag, c.com, c.last, c.code, c.sink, fun q => ?_, fun q => ?_⟩,
        ?_, ?_, ?_, Or.inr hmk⟩
      · rcases q with q | q <;> cases q
      · rcases q with q | q <;> cases q
      · show a :: (r ++ l) = _ ++ l
        simp only [hre]; rfl
      · simp only [hre]; exact h.eofl
      · simp only [hre]; exact h.ended

theorem longestTo_mem {refs : Spec.HtmlTok.Refs} {s : List Nat} {n : Nat} {r} (h : Spec.HtmlTok.longestTo refs s n = some r) :
    r ∈ refs ∧ r.1 <+: s := by
  induction n with
  | zero => cases h
  | succ n ih =>
    unfold Spec.HtmlTok.longestTo at h
    cases hf : refs.find? fun r => r.1 == s.take (n + 1) with
    | none => rw [hf] at h; exact ih h
    | some q =>
      rw [hf] at h
      cases h
      refine ⟨List.mem_of_find?_eq_some hf, ?_⟩
      have := List.find?_some hf
      have e : r.1 = s.take (n + 1) := by simpa using this
      rw [e]
      exact List.take_prefix _ _

theorem agree_find {P : Nat → Prop} {find : Find} {refs : Spec.HtmlTok.Refs} (h : Agree P find refs) : FindOk P find := by
  intro s hs
  obtain ⟨r, e, g⟩ := h s hs
  refine ⟨r, e, ?_⟩
  rintro n a b rfl
  exact (longestTo_mem g.symm).2

theorem longestTo_append (refs : Spec.HtmlTok.Refs) (s l : List Nat) (n : Nat) (h : n ≤ s.length) :
    Spec.HtmlTok.longestTo refs (s ++ l) n = Spec.HtmlTok.longestTo refs s n := by
  induction n with
  | zero => rfl
  | succ n ih =>
    unfold Spec.HtmlTok.longestTo
    rw [List.take_append_of_le_length h, ih (by omega)]

theorem longestTo_short (refs : Spec.HtmlTok.Refs) (N : Nat) (hr : ∀ r ∈ refs, r.1.length ≤ N) (s : List Nat) (k : Nat)
    (h : N + k ≤ s.length) : Spec.HtmlTok.longestTo refs s (N + k) = Spec.HtmlTok.longestTo refs s N := by
  induction k with
  | zero => rfl
  | succ k ih =>
    rw [show N + (k + 1) = (N + k) + 1 from rfl, Spec.HtmlTok.longestTo]
    have : (refs.find? fun r => r.1 == s.take (N + k + 1)) = none := by
      rw [List.find?_eq_none]
      intro r hm hh
      have e : r.1 = s.take (N + k + 1) := by simpa using hh
      have := hr r hm
      rw [e, List.length_take] at this
      omega
    rw [this]
    exact ih (by omega)

theorem longest_append (refs : Spec.HtmlTok.Refs) (N : Nat) (hr : ∀ r ∈ refs, r.1.length ≤ N) (s l : List Nat) (h : N ≤ s.length) :
    Spec.HtmlTok.longest refs (s ++ l) = Spec.HtmlTok.longest refs s := by
  unfold Spec.HtmlTok.longest
  obtain ⟨k, hk⟩ : ∃ k, s.length = N + k := ⟨s.length - N, by omega⟩
  obtain ⟨j, hj⟩ : ∃ k, (s ++ l).length = N + k := ⟨(s ++ l).length - N, by simp; omega⟩
  rw [hj, longestTo_short refs N hr _ j (by omega), longestTo_append refs s l N h, hk, longestTo_short refs N hr _ k (by omega)]

theorem named_sim (S : Sink σ) (find : Find) (refs : Spec.HtmlTok.Refs)
    (hN : ∀ r ∈ refs, r.1.length ≤ 32) (l : List Nat) (m m1 : M σ) (x : Spec.HtmlTok.C σ)
    (hA : ∃ r, find m.inp.c = some r ∧ (r.map fun (n, a, b) => (n, if b ≠ 0 then [a, b] else [a])) = Spec.HtmlTok.longest refs m.inp.c)
    (h : Sim l m x) (hi : Inv m) (hr : Ready m) (hst : m.st = .namedRef)
    (hs : namedRef S find m = some m1) : Sim l m1 (Spec.HtmlTok.step (envOf S) refs x) := by
  have hxs : x.st = .namedRef := by rw [h.core.st, hst]; rfl
  have hstep : Spec.HtmlTok.step (envOf S) refs x = Spec.HtmlTok.named (envOf S) refs x := by
    unfold Spec.HtmlTok.step; rw [h.ended, hr.fresh, hxs]; rfl
  rw [hstep]
  have hfi : fill m.inp 33 = true := by
    by_contra hh
    exact hr.free (Or.inr (Or.inr ⟨hst, by simpa using hh⟩))
  have hen := filled h hfi
  have c := h.core
  have hlong : Spec.HtmlTok.longest refs x.rest = Spec.HtmlTok.longest refs m.inp.c := by
    rw [h.rest]
    rcases hen with q | rfl
    · exact longest_append refs 32 hN _ _ (by omega)
    · simp
  obtain ⟨e, h1, h2, h3⟩ := hi.ret (by rw [hst]; rfl)
  have hmk : (m.inp.c = [] ∧ m.inp.eof = true) ∨ Marks (cur m).attrs := by
    rcases h.marks with q | q
    · exact Or.inl q
    · right; simpa [MarksIn, hst] using q
  obtain ⟨r, hf, hg⟩ := hA
  unfold namedRef at hs
  rw [hf] at hs
  unfold Spec.HtmlTok.named
  rw [hlong]
  cases r with
  | none =>
    rw [← hg]
    dsimp only [Option.map] at hs ⊢
    obtain ⟨m2, e2, k2⟩ := flushRef_keeps S m ⟨e, h1, h2, h3⟩
    rw [e2] at hs
    cases hs
    obtain ⟨a1, a2, a3, a4, a5⟩ := flush_core c e2 .ambiguousAmp (Or.inr rfl)
    refine ⟨a1, ?_, ?_, ?_, ?_⟩
    · show (Spec.HtmlTok.flushRef _ _).rest = m2.inp.c ++ l
      rw [a3, k2.inp]; exact h.rest
    · show m2.inp.eof = true → _
      rw [k2.inp]; exact h.eofl
    · show (Spec.HtmlTok.flushRef _ _).ended = m2.inp.eofConsumed
      rw [a4, k2.inp]; exact h.ended
    · show (m2.inp.c = [] ∧ m2.inp.eof = true) ∨ _
      rw [k2.inp]
      rcases hmk with q | q
      · exact Or.inl q
      · right; exact a2 q
  | some r =>
    obtain ⟨name, a, b⟩ := r
    have hg' : Spec.HtmlTok.longest refs m.inp.c = some (name, if b ≠ 0 then [a, b] else [a]) := hg.symm
    obtain ⟨hmem, hpre⟩ := longestTo_mem hg'
    have hl32 : name.length ≤ 32 := hN _ hmem
    have hlen : name.length ≤ m.inp.c.length := hpre.length_le
    rw [hg']
    dsimp only at hs ⊢
    obtain ⟨cu, e2⟩ := skip_eq name.length { m with tmp := m.tmp ++ name } hlen
    rw [e2] at hs
    have hdr : x.rest.drop name.length = m.inp.c.drop name.length ++ l := by rw [h.rest]; exact drop_filled l hlen
    generalize hb : (Spec.HtmlTok.inAttr ({ x with rest := x.rest.drop name.length } : Spec.HtmlTok.C σ) && name.getLast? != some 0x3B &&
      (match x.rest.drop name.length with | [] => false | c :: _ => c == 0x3D || Spec.HtmlTok.isAlnum c)) = asText
    have hin : Spec.HtmlTok.inAttr ({ x with rest := x.rest.drop name.length } : Spec.HtmlTok.C σ) =
      inAttr ({ m with tmp := m.tmp ++ name, inp := { m.inp with c := m.inp.c.drop name.length, cur := cu } } : M σ) := inAttr_eq c.ret
    have hal : ∀ y, Spec.HtmlTok.isAlnum y = isAsciiAlphanumeric y := fun y => on_alnum y
    have hm2 : (match m.inp.c.drop name.length with
        | y :: _ => if inAttr ({ m with tmp := m.tmp ++ name, inp := { m.inp with c := m.inp.c.drop name.length, cur := cu } } : M σ) &&
              name.getLast? != some 0x3B && (y == 0x3D || isAsciiAlphanumeric y)
            then ({ m with tmp := m.tmp ++ name, inp := { m.inp with c := m.inp.c.drop name.length, cur := cu } } : M σ)
            else { m with tmp := if b ≠ 0 then [a, b] else [a], inp := { m.inp with c := m.inp.c.drop name.length, cur := cu } }
        | [] => { m with tmp := if b ≠ 0 then [a, b] else [a], inp := { m.inp with c := m.inp.c.drop name.length, cur := cu } }) =
        { m with inp := { m.inp with c := m.inp.c.drop name.length, cur := cu }, tmp := if asText then m.tmp ++ name else if b ≠ 0 then [a, b] else [a] } := by
      rw [hin, hdr] at hb
      cases hd : m.inp.c.drop name.length with
      | nil =>
        have hl : l = [] := by
          rcases hen with q | q
          · have := congrArg List.length hd
            simp at this; omega
          · exact q
        rw [hd, hl] at hb
        simp only [List.append_nil, Bool.and_false] at hb
        subst hb
        rfl
      | cons y r =>
        rw [hd, List.cons_append] at hb
        dsimp only at hb ⊢
        rw [hal] at hb
        rw [hb]
        cases asText <;> rfl
    have hs' : (match flushRef S ({ m with inp := { m.inp with c := m.inp.c.drop name.length, cur := cu }, tmp := if asText then m.tmp ++ name else if b ≠ 0 then [a, b] else [a] } : M σ) with
      | none => none
      | some m =>
        match m.ret with
        | none => none
        | some st => some (go st m)) = some m1 := by
      rw [← hm2]
      exact hs
    obtain ⟨m2, e3, k3⟩ := flushRef_keeps S ({ m with inp := { m.inp with c := m.inp.c.drop name.length, cur := cu }, tmp := if asText then m.tmp ++ name else if b ≠ 0 then [a, b] else [a] } : M σ) ⟨e, h1, h2, h3⟩
    rw [e3] at hs'
    dsimp only at hs'
    rw [k3.ret] at hs'
    dsimp only at hs'
    rw [h1] at hs'
    cases hs'
    have hc : Core ({ m with inp := { m.inp with c := m.inp.c.drop name.length, cur := cu }, tmp := if asText then m.tmp ++ name else if b ≠ 0 then [a, b] else [a] } : M σ)
        { x with rest := x.rest.drop name.length, tmp := if asText then x.tmp ++ name else if b ≠ 0 then [a, b] else [a] } :=
      ⟨c.st, c.ret, by rw [c.tmp], c.dtName, c.pub, c.sys, c.quirks, c.tag, c.com, c.last, c.code, c.sink, c.pubSome, c.sysSome⟩
    obtain ⟨a1, a2, a3, a4, a5⟩ := flush_core hc e3 e (Or.inl h2)
    have hret : (Spec.HtmlTok.flushRef (envOf S)
        { x with rest := x.rest.drop name.length, tmp := if asText then x.tmp ++ name else if b ≠ 0 then [a, b] else [a] }).ret
        = stOf e := by rw [a5]; show x.ret = _; rw [c.ret, h1]; rfl
    have hfin : ({ Spec.HtmlTok.flushRef (envOf S)
        { x with rest := x.rest.drop name.length, tmp := if asText then x.tmp ++ name else if b ≠ 0 then [a, b] else [a] }
        with st := (Spec.HtmlTok.flushRef (envOf S)
        { x with rest := x.rest.drop name.length, tmp := if asText then x.tmp ++ name else if b ≠ 0 then [a, b] else [a] }).ret } : Spec.HtmlTok.C σ) =
        { Spec.HtmlTok.flushRef (envOf S)
        { x with rest := x.rest.drop name.length, tmp := if asText then x.tmp ++ name else if b ≠ 0 then [a, b] else [a] }
        with st := stOf e } := by rw [hret]
    have goal : Sim l (go e m2) { Spec.HtmlTok.flushRef (envOf S)
        { x with rest := x.rest.drop name.length, tmp := if asText then x.tmp ++ name else if b ≠ 0 then [a, b] else [a] }
        with st := stOf e } := by
      refine ⟨a1, ?_, ?_, ?_, ?_⟩
      · show (Spec.HtmlTok.flushRef _ _).rest = m2.inp.c ++ l
        rw [a3, k3.inp]; exact hdr
      · show m2.inp.eof = true → _
        rw [k3.inp]; exact h.eofl
      · show (Spec.HtmlTok.flushRef _ _).ended = m2.inp.eofConsumed
        rw [a4, k3.inp]; exact h.ended
      · show (m2.inp.c = [] ∧ m2.inp.eof = true) ∨ _
        rw [k3.inp]
        rcases hmk with q | q
        · left; refine ⟨?_, q.2⟩; show m.inp.c.drop _ = []; rw [q.1]; simp
        · right
          have hne : (go e m2).st ≠ .attrName := by intro hh; have : e = .attrName := hh; rw [this] at h2; cases h2
          simpa [MarksIn, hne] using a2 q
    rw [← hfin] at goal
    exact goal

theorem step_sim (S : Sink σ) (hS : SwitchOk S) (find : Find) (refs : Spec.HtmlTok.Refs)
    (hN : ∀ r ∈ refs, r.1.length ≤ 32) (l : List Nat) (m m1 : M σ) (x : Spec.HtmlTok.C σ)
    (hA : m.st = .namedRef →
      ∃ r, find m.inp.c = some r ∧ (r.map fun (n, a, b) => (n, if b ≠ 0 then [a, b] else [a])) = Spec.HtmlTok.longest refs m.inp.c)
    (h : Sim l m x) (hi : Inv m) (hr : Ready m) (ht : ¬ Trouble S x)
    (hs : mstep S find m = some m1) : Sim l m1 (Spec.HtmlTok.step (envOf S) refs x) := by
  by_cases hsp : special m.st = false
  · exact plain_sim S hS find refs l m m1 x h hi hr ht hsp hs
  · have : m.st = .markupDecl ∨ m.st = .afterDoctypeName ∨ m.st = .namedRef ∨ m.st = .numericEnd := by
      revert hsp; cases m.st <;> simp [special]
    rcases this with q | q | q | q
    · exact markup_sim S refs l m m1 x h hr ht q (by rw [← hs, mstep]; simp only [q])
    · exact afterName_sim S refs find l m m1 x h hr q hs
    · exact named_sim S find refs hN l m m1 x (hA q) h hi hr q (by rw [← hs, mstep]; simp only [q])
    · exact numeric_sim S refs l m m1 x h hi hr.fresh ht q (by rw [← hs, mstep]; simp only [q])

/-- A run of the standard that the model follows. -/
def Follows (S : Sink σ) (refs : Spec.HtmlTok.Refs) (x0 : Spec.HtmlTok.C σ) (l : List Nat) (m : M σ) : Prop :=
  ∃ k, Sim l m (Spec.HtmlTok.steps (envOf S) refs k x0)

theorem steps_succ (E : Spec.HtmlTok.Env σ) (refs : Spec.HtmlTok.Refs) (k : Nat) (x : Spec.HtmlTok.C σ) :
    Spec.HtmlTok.steps E refs (k + 1) x = Spec.HtmlTok.step E refs (Spec.HtmlTok.steps E refs k x) := by
  induction k generalizing x with
  | zero => rfl
  | succ k ih => rw [Spec.HtmlTok.steps, ih]; rfl

theorem follows_rel (B : List Nat → M σ → Prop) (S : Sink σ) (hS : SwitchOk S) (find : Find) (refs : Spec.HtmlTok.Refs)
    (hA : ∀ l m, B l m → Ready m → m.st = .namedRef →
      ∃ r, find m.inp.c = some r ∧ (r.map fun (n, a, b) => (n, if b ≠ 0 then [a, b] else [a])) = Spec.HtmlTok.longest refs m.inp.c)
    (hN : ∀ r ∈ refs, r.1.length ≤ 32) (x0 : Spec.HtmlTok.C σ)
    (hx : ∀ k, ¬ Trouble S (Spec.HtmlTok.steps (envOf S) refs k x0)) : Rel B S find (Follows S refs x0) := by
  refine ⟨?_, ?_, ?_⟩
  · rintro l m m1 ⟨k, h⟩ hi hP hr hs _
    exact ⟨k + 1, by rw [steps_succ]; exact step_sim S hS find refs hN l m m1 _ (hA l m hP hr) h hi hr (hx k) hs⟩
  · rintro c l m ⟨k, h⟩ he
    refine ⟨k, h.core.inp' _, ?_, ?_, h.ended, ?_⟩
    · rw [h.rest]; simp [feed1]
    · intro q; have : m.inp.eof = true := q; rw [he] at this; cases this
    · rcases h.marks with q | q
      · rw [he] at q; exact absurd q.2 (by simp)
      · exact Or.inr q
  · rintro m ⟨k, h⟩ he
    refine ⟨k, h.core.inp' _, h.rest, fun _ => rfl, h.ended, ?_⟩
    rcases h.marks with q | q
    · exact Or.inl ⟨q.1, rfl⟩
    · exact Or.inr q

theorem start_sim (S : Sink σ) (s : σ) (l : List Nat) : Sim l (init s) (Spec.HtmlTok.start s l) := by
  refine ⟨⟨rfl, rfl, rfl, rfl, rfl, rfl, rfl, rfl, rfl, rfl, rfl, rfl, ?_, ?_⟩, rfl, ?_, rfl, Or.inr ?_⟩
  · rintro (q | q) <;> cases q
  · rintro (q | q) <;> cases q
  · intro q; cases q
  · simp [MarksIn, init, cur, tagBy, Marks]

end Verif.Proof.HtmlTok
