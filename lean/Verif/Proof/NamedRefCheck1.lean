import Verif.Proof.NamedRefCheck
/- The nodes of the trie of named character references, part 1. -/
namespace Verif.Proof.NamedRef

set_option maxRecDepth 100000 in
theorem nodes1 : nodesOk 11049 2 = true := by decide +kernel

end Verif.Proof.NamedRef
