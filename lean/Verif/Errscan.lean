import Verif.Gram
/-!
# Model of `errorscan.c`
-/

namespace Jbo.Errscan
open Jbo.Terms

/-- One node in `error_scan` (`errorscan.c:17-46`): the fragments for which the warning *Sentence may be missing
selbri* is written.  The program looks at the children of a node before the node, the model after it. -/
def node (_ : List Node) (x : Node) : M (List Nat) := do
  if x.isNT .fragment then
    let c ← childRef x 0
    if c.isNT .terms then return [x.id] else return []
  else return []

/-- `error_scan` (`errorscan.c:17-46`). -/
def errorScan (top : Node) : M (List Nat) := Gram.visit node [] top

end Jbo.Errscan
