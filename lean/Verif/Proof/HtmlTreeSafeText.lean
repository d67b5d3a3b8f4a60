import Verif.Proof.HtmlTreeSafe7
import Verif.Proof.HtmlTreeWatch
import Verif.Spec.HtmlAtom
/- Texts without the elements that lead to undefined behaviour. -/
namespace Verif.Proof.HtmlTree.Safe
open Verif.Model.HtmlTree Verif.Spec.HtmlWatch
open Verif.Spec.HtmlAtom (codes)

theorem mem_ofName {ks : List K} {ns : List (List Nat)} (h : ∀ e ∈ K.names, e.1 ∈ ks → cps e.2 ∈ ns) {n : List Nat}
    (hm : (Tag.ofName n).mem ks = true) : n ∈ ns := by
  unfold Tag.ofName at hm
  split at hm
  · next e he =>
    have h1 : cps e.2 = n := by simpa using List.find?_some he
    rw [← h1]
    exact h e (List.mem_of_find?_eq_some he) (by simpa [Tag.mem] using hm)
  · cases hm

theorem mem_starts {l : List Model.HtmlTok.Tok} {n a f} (h : .startTag n a f ∈ l) : n ∈ starts l := by
  induction l with
  | nil => cases h
  | cons t l ih =>
    rcases List.mem_cons.mp h with rfl | h
    · exact List.mem_cons_self
    · have := ih h
      cases t <;> simp only [starts] <;> first | exact this | exact List.mem_cons_of_mem _ this

/-- The tokens that are processed safely. -/
def Mild (q : Prop) : Model.HtmlTok.Tok → Prop
  | .startTag n _ _ => (Tag.ofName n).mem [.button, .svg, .math, .template] = false ∧ ((Tag.ofName n).mem (.a :: .nobr :: fmtTags) = true → q)
  | _ => True

theorem fine_of {q : Prop} {s : S} {t : Model.HtmlTok.Tok} (h : Mild q t) : Fine q (convert s t) := by
  cases t <;> exact h

theorem eof_of {s : S} {t : Model.HtmlTok.Tok} (h : t ≠ .eof) : convert s t ≠ .eof := by
  cases t <;> first | exact absurd rfl h | (intro e; cases e)

theorem safe_keeps (tbl : List Nat → Bool) (q : Prop) : Keeps tbl (Mild q) (Inv q) (fun _ => True) (Left q) where
  init := init_inv
  weak _ _ := trivial
  emit s t ht h := by
    have := emit_ok tbl (convert s t) s (fine_of ht) h
    unfold Good at this
    generalize emit tbl (convert s t) s = z at this
    cases z with
    | error e => exact this
    | ok s' => exact ⟨trivial, fun he => After.of (eof_of he) ▸ this⟩

end Verif.Proof.HtmlTree.Safe
