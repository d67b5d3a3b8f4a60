import Verif.Proof.NamedRefCheck
/- The nodes of the trie of named character references, part 3. -/
namespace Verif.Proof.NamedRef

set_option maxRecDepth 100000 in
theorem nodes3 : nodesOk 11048 22100 = true := by decide +kernel

end Verif.Proof.NamedRef
