import Verif.Model.HtmlTree
/-
Evaluation of the parser on concrete texts by the kernel. The kernel evaluates on demand; here the state is evaluated at each token
   ,
which changes nothing about the result (`sink_strict`).
-/
namespace Verif.Proof.HtmlTree
open Verif.Model.HtmlTree

/-- Values that can be evaluated before they are passed on. -/
class Strict (α : Type) where
  force {β : Type} : α → (α → β) → β
  eq {β : Type} (x : α) (k : α → β) : force x k = k x

open Strict (force)

instance : Strict Nat where
  force x k := match x with | 0 => k 0 | n + 1 => k (n + 1)
  eq x k := by cases x <;> rfl

instance : Strict Bool where
  force x k := match x with | true => k true | false => k false
  eq x k := by cases x <;> rfl

def forceList {α β : Type} [Strict α] : List α → (List α → β) → β
  | [], k => k []
  | a :: l, k => force a fun a => forceList l fun l => k (a :: l)

theorem forceList_eq {α β : Type} [Strict α] (l : List α) (k : List α → β) : forceList l k = k l := by
  induction l generalizing k with
  | nil => rfl
  | cons a l ih => simp only [forceList, Strict.eq, ih]

instance {α : Type} [Strict α] : Strict (List α) where
  force := forceList
  eq := forceList_eq

instance {α : Type} [Strict α] : Strict (Option α) where
  force x k := match x with | none => k none | some a => force a fun a => k (some a)
  eq x k := by cases x <;> simp only [Strict.eq]

instance : Strict K where
  force x k := match x with
    | .a => k .a | .address => k .address | .annotationXml => k .annotationXml | .applet => k .applet
    | .area => k .area | .article => k .article | .aside => k .aside | .b => k .b | .base => k .base
    | .basefont => k .basefont | .bgsound => k .bgsound | .big => k .big | .blockquote => k .blockquote | .body => k .body
    | .br => k .br | .button => k .button | .caption => k .caption | .center => k .center | .code => k .code | .col => k .col
    | .colgroup => k .colgroup | .dd => k .dd | .desc => k .desc | .details => k .details | .dialog => k .dialog
    | .dir => k .dir | .div => k .div | .dl => k .dl | .dt => k .dt | .em => k .em | .embed => k .embed
    | .factorial => k .factorial | .fieldset => k .fieldset | .figcaption => k .figcaption | .figure => k .figure
    | .font => k .font | .footer => k .footer | .foreignObject => k .foreignObject | .form => k .form | .frame => k .frame
    | .frameset => k .frameset | .h1 => k .h1 | .h2 => k .h2 | .h3 => k .h3 | .h4 => k .h4 | .h5 => k .h5 | .h6 => k .h6
    | .head => k .head | .header => k .header | .hgroup => k .hgroup | .hr => k .hr | .html => k .html | .i => k .i
    | .iframe => k .iframe | .image => k .image | .img => k .img | .input => k .input | .keygen => k .keygen | .li => k .li
    | .link => k .link | .listing => k .listing | .main => k .main | .malignmark => k .malignmark | .marquee => k .marquee
    | .math => k .math | .menu => k .menu | .metaEl => k .metaEl | .mglyph => k .mglyph | .mi => k .mi | .mn => k .mn
    | .mo => k .mo | .ms => k .ms | .mtext => k .mtext | .nav => k .nav | .nobr => k .nobr | .noembed => k .noembed
    | .noframes => k .noframes | .noscript => k .noscript | .object => k .object | .ol => k .ol | .optgroup => k .optgroup
    | .option => k .option | .p => k .p | .param => k .param | .plaintext => k .plaintext | .pre => k .pre | .rb => k .rb
    | .rp => k .rp | .rt => k .rt | .rtc => k .rtc | .ruby => k .ruby | .s => k .s | .script => k .script
    | .sectionEl => k .sectionEl | .select => k .select | .small => k .small | .source => k .source | .span => k .span
    | .strike => k .strike | .strong => k .strong | .style => k .style | .sub => k .sub | .summary => k .summary
    | .sup => k .sup | .svg => k .svg | .table => k .table | .tbody => k .tbody | .td => k .td | .template => k .template
    | .textarea => k .textarea | .tfoot => k .tfoot | .th => k .th | .thead => k .thead | .title => k .title | .tr => k .tr
    | .track => k .track | .tt => k .tt | .u => k .u | .ul => k .ul | .var => k .var | .wbr => k .wbr | .xmp => k .xmp
  eq x k := by cases x <;> rfl

instance : Strict Ns where
  force x k := match x with | .html => k .html | .mathml => k .mathml | .svg => k .svg
  eq x k := by cases x <;> rfl

instance : Strict ANs where
  force x k := match x with | .none => k .none | .xlink => k .xlink | .xml => k .xml | .xmlns => k .xmlns
  eq x k := by cases x <;> rfl

instance : Strict Mode where
  force x k := match x with
    | .initial => k .initial | .beforeHtml => k .beforeHtml | .beforeHead => k .beforeHead
    | .inHead => k .inHead | .inHeadNoscript => k .inHeadNoscript | .afterHead => k .afterHead | .inBody => k .inBody
    | .text => k .text | .inTable => k .inTable | .inTableText => k .inTableText | .inCaption => k .inCaption
    | .inColumnGroup => k .inColumnGroup | .inTableBody => k .inTableBody | .inRow => k .inRow | .inCell => k .inCell
    | .inSelect => k .inSelect | .inSelectInTable => k .inSelectInTable | .inTemplate => k .inTemplate
    | .afterBody => k .afterBody | .inFrameset => k .inFrameset | .afterFrameset => k .afterFrameset
    | .afterAfterBody => k .afterAfterBody | .afterAfterFrameset => k .afterAfterFrameset
  eq x k := by cases x <;> rfl

instance : Strict DocMode where
  force x k := match x with | .noQuirks => k .noQuirks | .quirks => k .quirks | .limited => k .limited
  eq x k := by cases x <;> rfl

instance : Strict Sw where
  force x k := match x with
    | .rcdata => k .rcdata | .rawtext => k .rawtext | .scriptData => k .scriptData
    | .plaintext => k .plaintext
  eq x k := by cases x <;> rfl

instance : Strict Fail where
  force x k := match x with
    | .empty => k .empty | .assertion => k .assertion | .stale => k .stale | .badMove => k .badMove
    | .freed => k .freed | .null => k .null | .fuel => k .fuel
  eq x k := by cases x <;> rfl

instance : Strict Tag where
  force x k := match x with | .k t => force t fun t => k (.k t) | .other s => force s fun s => k (.other s)
  eq x k := by cases x <;> simp only [Strict.eq]

instance : Strict At where
  force x k := force x.ns fun ns' => force x.pre fun pre' => force x.name fun name' => force x.val fun val' => k ⟨ns', pre', name', val'
   ⟩
  eq x k := by simp only [Strict.eq]

instance : Strict Kind where
  force x k := match x with
    | .document => k .document
    | .doctype a b c => force a fun a => force b fun b => force c fun c => k (.doctype a b c)
    | .elem ns t l => force ns fun ns => force t fun t => force l fun l => k (.elem ns t l)
    | .text s => force s fun s => k (.text s)
    | .comment s => force s fun s => k (.comment s)
  eq x k := by cases x <;> simp only [Strict.eq]

instance : Strict Node where
  force x k := force x.kind fun kind' => force x.parent fun parent' => force x.kids fun kids' => k ⟨kind', parent', kids'⟩
  eq x k := by simp only [Strict.eq]

instance : Strict Entry where
  force x k := force x.node fun node' => force x.ns fun ns' => force x.tag fun tag' => force x.attrs fun attrs' => k ⟨node', ns', tag', attrs'
   ⟩
  eq x k := by simp only [Strict.eq]

instance : Strict Fmt where
  force x k := match x with | .marker => k .marker | .el e => force e fun e => k (.el e)
  eq x k := by cases x <;> simp only [Strict.eq]

instance : Strict S where
  force x k := force x.dom fun dom' => force x.doc fun doc' => force x.mode fun mode' => force x.orig fun orig' => force x.tmpl fun tmpl' => force x.stack fun stack' => force x.fmt fun fmt' => force x.head fun head' => force x.form fun form' => force x.framesetOk fun framesetOk' => force x.foster fun foster' => force x.omitLf fun omitLf' => force x.pending fun pending' => force x.switch fun switch' => force x.slots fun slots' => k ⟨dom', doc', mode', orig', tmpl', stack', fmt', head', form', framesetOk', foster', omitLf', pending', switch', slots'
   ⟩
  eq x k := by simp only [Strict.eq]

instance {α : Type} [Strict α] : Strict (R α) where
  force x k := match x with | .ok a => force a fun a => k (.ok a) | .error e => force e fun e => k (.error e)
  eq x k := by cases x <;> simp only [Strict.eq]

/-- The sink that evaluates its state at each token. -/
def strictSink (tbl : List Nat → Bool) : Verif.Model.HtmlTok.Sink (R S) :=
  { sink tbl with emit := fun r t => force ((sink tbl).emit r t) fun r => r }

theorem sink_strict (tbl : List Nat → Bool) : sink tbl = strictSink tbl := by
  unfold strictSink
  simp only [Strict.eq]

end Verif.Proof.HtmlTree
