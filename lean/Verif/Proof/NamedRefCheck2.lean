import Verif.Proof.NamedRefCheck
/- The nodes of the trie of named character references, part 2. -/
namespace Verif.Proof.NamedRef

set_option maxRecDepth 100000 in
theorem nodes2 : nodesOk 11049 11051 = true := by decide +kernel

end Verif.Proof.NamedRef
