import Verif.Props.Serialize
import Verif.Props.Unicode
import Verif.Props.Infra
import Verif.Props.StaticVector
import Verif.Props.Matcher
import Verif.Props.HtmlInput
import Verif.Props.CssInput
import Verif.Props.CssTok
import Verif.Props.CssParse
import Verif.Props.Selector
import Verif.Props.HtmlAtom
import Verif.Props.HtmlSerial
import Verif.Props.HtmlTok
import Verif.Props.HtmlRoundTrip
import Verif.Props.NamedRef
import Verif.Props.NamedRefTok
import Verif.Props.HtmlTree
import Verif.Props.HtmlTreeSafe
import Verif.Props.HtmlTreePlain
import Verif.Props.HtmlTreeShape
import Verif.Props.HtmlTreeSource
import Verif.Props.HtmlTreeDone
import Verif.Props.HtmlDoc
import Verif.Props.Trie
import Verif.Props.TrieWide
import Verif.Props.TrieIter
import Verif.Props.TrieIO
import Verif.Props.TrieBulk
import Verif.Props.Tree
import Verif.Props.TagTree
import Verif.Props.Utf
import Verif.Props.Legacy
import Verif.Props.TextDecoder
import Verif.Props.Labels
import Verif.Props.Percent
import Verif.Props.Host
import Verif.Props.Url
import Verif.Props.Meta
import Verif.Props.HtmlBytes
import Verif.Props.UrlText
import Verif.Props.UrlSet
import Verif.Props.UrlGet
import Verif.Props.Atom
import Verif.Spec.Decoding
import Verif.Proof.TablesScalar
import Verif.Proof.DecodeAll
import Verif.Proof.DecodePure
import Verif.Proof.DecodeSafe
import Verif.Proof.DecodeQueue
import Verif.Props.DecodeAll
import Verif.Proof.UrlSim
import Verif.Proof.UrlResolve
import Verif.Proof.UrlJoin
import Verif.Spec.UrlResolve
import Verif.Props.UrlResolve
import Verif.Spec.Multibyte
import Verif.Proof.Multibyte
import Verif.Props.Multibyte
import Verif.Spec.Reporting
import Verif.Proof.Reporting
import Verif.Spec.Gb18030
import Verif.Proof.Gb18030
import Verif.Props.Gb18030
