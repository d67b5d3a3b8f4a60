import Verif.Props.HtmlTreeSafe
import Verif.Props.HtmlTreeSource
import Verif.Proof.HtmlTreeDone
/- Property C107: the shape of the documents that come from texts. -/
namespace Verif.Props.HtmlTree
open Verif.Model.HtmlTree Verif.Proof.HtmlTree Verif.Proof.HtmlTree.Safe Verif.Spec.HtmlTree Verif.Spec.HtmlTokBridge Verif.Spec.HtmlWatch
open Verif.Model.HtmlTok (Find)
open Verif.Spec.HtmlAtom (codes)
open Verif.Props.HtmlTok (noNames)

theorem mem_nodes_all {k : Spec.HtmlSerial.Dom} : ∀ {l : List Spec.HtmlSerial.Dom}, k ∈ l → ∀ x ∈ nodes k, x ∈ nodesAll l
  | _ :: _, h, x, hx => by
    rw [nodesAll]
    rcases List.mem_cons.mp h with rfl | h
    · exact List.mem_append_left _ hx
    · exact List.mem_append_right _ (mem_nodes_all h x hx)

theorem mem_names {l : List Spec.HtmlSerial.Dom} {n : List Nat} (h : some n ∈ elementNames l) : ∃ k ∈ l, ∃ ns pre attrs, k.data = .element ns pre n attrs := by
  obtain ⟨k, hk, h⟩ := List.mem_filterMap.mp h
  refine ⟨k, hk, ?_⟩
  split at h
  · next ns pre name attrs e =>
    rw [Option.some.injEq] at h
    split at h
    · cases h; exact ⟨_, _, _, e⟩
    · cases h
  · cases h

theorem data_mem (k : Spec.HtmlSerial.Dom) : k.data ∈ nodes k := by cases k; simp [nodes, Spec.HtmlSerial.Dom.data]

theorem kids_mem {D k : Spec.HtmlSerial.Dom} (h : k ∈ D.kids) {x : Spec.HtmlSerial.Data} (hx : x ∈ nodes k) : x ∈ nodes D := by
  cases D
  rw [nodes]
  exact List.mem_cons_of_mem _ (mem_nodes_all h x hx)

/-- C107 for texts whose end reaches the tree construction: unless one of the tags is a start tag of `button`, `svg`, `math` or
`template`, a document that the parser gives has one element, `html`, and in it `head` and `body`, or `head`, `frameset` and the
`noframes` elements that follow the frameset (as the standard has it). Missing: the texts with those start tags, for which it is false (`C107_breakout`,
`C107_template`), and those whose end does not reach the tree construction, for which it is false as well (`C107_empty`). -/
theorem C107_partial (tbl : List Nat → Bool) (P : Nat → Prop) (find : Find) (hF : FindOk P find) (h10 : P 10) (l : List Nat)
    (hl : ∀ c ∈ l, P c) (hcr : l.getLast? ≠ some 13) (f : Nat) (hf : 24 * l.length + 39 ≤ f) (s : S)
    (hs : parseEof tbl find f l = some (.ok s)) :
    ∃ toks, tokensEof tbl find f l = some toks ∧ ((∀ n ∈ starts toks, n ∉ risky) → .eof ∈ toks →
      ShapedFrames (document s.dom) ∧ (codes "noframes" ∉ starts toks → Shaped (document s.dom))) := by
  obtain ⟨r, toks, b1, b2⟩ := parseEof_ends (safe_ends tbl True) P find hF h10 l hl hcr
  refine ⟨toks, (b1 f hf).2, fun hn he => ?_⟩
  have hr : r = .ok s := Option.some.inj ((b1 f hf).1.symm.trans hs)
  have h1 := b2 (fun t ht => by
    cases t with
    | startTag n a f =>
      refine ⟨?_, fun _ => trivial⟩
      by_contra hc
      exact hn n (mem_starts ht) (mem_ofName (ks := [.button, .svg, .math, .template]) (by decide +kernel) (by simpa using hc))
    | _ => trivial) he
  rw [hr] at h1
  obtain ⟨w, h2 | ⟨n, h2⟩⟩ := h1
  · obtain ⟨a, attrs, ks, b, c1, c2, c3, c4⟩ := Forest.shape_of w h2
    have c5 := c4.trans (show _ = [some (codes "head"), some (codes "body")] by decide +kernel)
    exact ⟨⟨a, attrs, ks, b, c1, c2, c3, .inl c5⟩, fun _ => ⟨a, attrs, ks, b, c1, c2, c3, .inl c5⟩⟩
  · obtain ⟨a, attrs, ks, b, c1, c2, c3, c4⟩ := Forest.shape_of w h2
    have c5 : elementNames ks = some (codes "head") :: some (codes "frameset") :: List.replicate n (some (codes "noframes")) := by
      refine c4.trans ?_
      rw [List.map_cons, List.map_cons, List.map_replicate]
      rfl
    refine ⟨⟨a, attrs, ks, b, c1, c2, c3, .inr ⟨n, c5⟩⟩, fun hno => ⟨a, attrs, ks, b, c1, c2, c3, .inr ?_⟩⟩
    cases n with
    | zero => exact c5
    | succ n =>
      obtain ⟨k, hk, ns, pre, ats, hd⟩ := mem_names (l := ks) (n := codes "noframes") (by rw [c5, List.replicate_succ]; simp)
      have h3 : Spec.HtmlSerial.Data.element ns pre (codes "noframes") ats ∈ nodes (document s.dom) := by
        refine kids_mem (k := .mk (.element Spec.HtmlSerial.htmlNs [] (codes "html") attrs) ks) (by rw [c1]; simp) (kids_mem (D := .mk _ ks) (k := k) hk ?_)
        rw [← hd]
        exact data_mem k
      obtain ⟨-, toks', e1, e2⟩ := C130 tbl P find hF h10 l hl f hf
      cases Option.some.inj ((b1 f hf).2.symm.trans e1)
      rcases (e2 s hs _ h3).1 with h | h | h
      · exact absurd h (by decide +kernel)
      · exact absurd h hno
      · exact absurd h.1 (by decide +kernel)

/-- A text with wrongly nested elements, a table and characters behind the body: none of its start tags is risky, its end reaches the
tree construction, and there is a result. -/
example : let w := codes "<!doctype html>a<b><p>x</b><table>y</table></body>z<select><option><h1><LI></h2>"
    (tokensEof (fun _ => false) noNames 3000 w).any (fun t => t.contains .eof && (starts t).all fun n => !risky.contains n) = true ∧
    test (fun D => shaped D) (parseEof (fun _ => false) noNames 3000 w) = true := by
  unfold parseEof tokensEof
  rw [sink_strict]
  decide +kernel

/-- Two `noframes` elements behind a frameset. -/
example : test (fun D => D.kids.any fun n => elementNames n.kids == [some (codes "head"), some (codes "frameset"), some (codes "noframes"), some (codes "noframes")])
    (parseEof (fun _ => false) noNames 3000 (codes "<frameset></frameset><noframes>a</noframes></html><noframes>b</noframes>")) = true := by
  unfold parseEof
  rw [sink_strict]
  decide +kernel

end Verif.Props.HtmlTree
