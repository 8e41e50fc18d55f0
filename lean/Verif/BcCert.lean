import Verif.BlockEval
import Verif.DfaCertPipe
import Verif.BcSrc
/-!
# The automaton for bad names, computed

The NFA and the table automaton that belong to `bctables.in`; the kernel checks both (see `BlockEval`
and `DfaCert`).
-/

namespace Jbo.Bc
open Jbo.Dfasyn
set_option maxRecDepth 100000

/-- The states of the main block of `bctables.in`, in order. -/
def bcStates : List NState := [
  ⟨[(some 7, 1), (some 6, 5)], [], []⟩,
  ⟨[(some 0, 2), (some 0, 3)], [], [c!"ATTR_SEEN_LD"]⟩,
  ⟨[(some 6, 8), (some 7, 8), (some 8, 8), (some 10, 8), (some 9, 8)], [], []⟩,
  ⟨[(some 2, 4)], [], []⟩,
  ⟨[(some 6, 8), (some 7, 8), (some 8, 8), (some 10, 8), (some 9, 8)], [], []⟩,
  ⟨[(some 3, 6)], [], [c!"ATTR_SEEN_LD"]⟩,
  ⟨[(some 2, 7)], [], []⟩,
  ⟨[(some 6, 8), (some 7, 8), (some 8, 8), (some 10, 8), (some 9, 8)], [], []⟩,
  ⟨[(none, 18)], [], []⟩,
  ⟨[(some 7, 10), (some 6, 14)], [], []⟩,
  ⟨[(some 0, 11), (some 0, 12)], [], [c!"ATTR_SEEN_LD"]⟩,
  ⟨[(some 6, 17), (some 7, 17), (some 8, 17), (some 10, 17), (some 9, 17)], [], []⟩,
  ⟨[(some 2, 13)], [], []⟩,
  ⟨[(some 6, 17), (some 7, 17), (some 8, 17), (some 10, 17), (some 9, 17)], [], []⟩,
  ⟨[(some 3, 15)], [], [c!"ATTR_SEEN_LD"]⟩,
  ⟨[(some 2, 16)], [], []⟩,
  ⟨[(some 6, 17), (some 7, 17), (some 8, 17), (some 10, 17), (some 9, 17)], [], []⟩,
  ⟨[(none, 19)], [], []⟩,
  ⟨[], [c!"TAG_SPLIT"], []⟩,
  ⟨[], [c!"TAG_NOSPLIT"], []⟩,
  ⟨[(none, 0), (some 8, 22), (some 7, 22), (some 6, 22), (some 9, 21), (some 10, 21), (some 4, 20), (some 3, 20), (some 2, 20), (some 1, 20), (some 0, 20), (some 5, 20)], [], []⟩,
  ⟨[(some 4, 20), (some 3, 20), (some 2, 20), (some 1, 20), (some 0, 20), (some 5, 20)], [], []⟩,
  ⟨[(none, 24), (some 4, 20), (some 3, 20), (some 2, 20), (some 1, 20), (some 0, 20), (some 5, 25), (some 10, 23), (some 8, 22), (some 7, 22), (some 6, 22)], [], []⟩,
  ⟨[(some 8, 22), (some 7, 22), (some 6, 22)], [], []⟩,
  ⟨[], [c!"TAG_OK"], []⟩,
  ⟨[(none, 9), (some 8, 22), (some 7, 22), (some 6, 22), (some 10, 26), (some 9, 21)], [], []⟩,
  ⟨[(some 4, 20), (some 3, 20), (some 2, 20), (some 1, 20), (some 0, 20), (some 5, 20)], [], []⟩,
  ⟨[(none, 0), (some 4, 20), (some 3, 20), (some 2, 20), (some 1, 20), (some 0, 20), (some 5, 25), (some 8, 22), (some 7, 22), (some 6, 22)], [], []⟩]

/-- The NFA that `dfasyn` reads from `bctables.in`. -/
def bcNfa : Nfa := ⟨bcStates, 11, bcExit, bcAttr⟩

theorem bc_compiles : bcSource.compile = some (bcNfa, 27) :=
  compile_of_check (src := bcSource) (l := bcStates) (by decide +kernel)

/-- The certificate. -/
def bcCert : Cert where
  W := 5
  exitNames := [
    c!"TAG_NOSPLIT", c!"TAG_OK", c!"TAG_SPLIT"]
  attrNames := [
    c!"ATTR_SEEN_LD"]
  classes := [
    ⟨0x0, 0x0, 0, 0⟩, ⟨0x2, 0x1, 3, 1⟩, ⟨0x2, 0x0, 3, 0⟩, ⟨0x6, 0x1, 1, 1⟩, ⟨0x6, 0x0, 1, 0⟩,
    ⟨0x4, 0x0, 1, 0⟩, ⟨0x3, 0x1, 2, 1⟩, ⟨0x3, 0x0, 2, 0⟩, ⟨0x1, 0x0, 2, 0⟩]
  nodes := [
    ⟨[0, 27], 0x62906210842, 0⟩,
    ⟨[0, 20], 0x1ce62904210842, 0⟩,
    ⟨[9, 25], 0x28e64a00000000, 0⟩,
    ⟨[5, 22, 24], 0x30063186258842, 1⟩,
    ⟨[1, 22, 24], 0x3006318621084d, 1⟩,
    ⟨[22, 24], 0x30063186210842, 2⟩,
    ⟨[21], 0x4210842, 0⟩,
    ⟨[14, 22, 24], 0x30063186270842, 1⟩,
    ⟨[10, 22, 24], 0x3006318621084f, 1⟩,
    ⟨[26], 0x4210842, 0⟩,
    ⟨[0, 6, 20], 0x1ce62904214042, 0⟩,
    ⟨[23], 0x63180000000, 0⟩,
    ⟨[0, 2, 3, 20], 0x56b49c84214442, 0⟩,
    ⟨[0, 15, 20], 0x1ce62904215842, 0⟩,
    ⟨[0, 11, 12, 20], 0x6f7ace04215c42, 0⟩,
    ⟨[0, 7, 20], 0x56b49c84210842, 0⟩,
    ⟨[0, 4, 20], 0x56b49c84210842, 0⟩,
    ⟨[5, 8, 18, 22, 24], 0x30063186258842, 3⟩,
    ⟨[1, 8, 18, 22, 24], 0x3006318621084d, 3⟩,
    ⟨[8, 18, 22, 24], 0x30063186210842, 4⟩,
    ⟨[8, 18, 21], 0x4210842, 5⟩,
    ⟨[0, 16, 20], 0x6f7ace04210842, 0⟩,
    ⟨[0, 13, 20], 0x6f7ace04210842, 0⟩,
    ⟨[5, 17, 19, 22, 24], 0x30063186258842, 6⟩,
    ⟨[1, 17, 19, 22, 24], 0x3006318621084d, 6⟩,
    ⟨[17, 19, 22, 24], 0x30063186210842, 7⟩,
    ⟨[17, 19, 21], 0x4210842, 8⟩]

theorem bc_graphOk : bcCert.graphOk bcNfa 27 2 5 = true := by decide +kernel

theorem bc_namesOk : bcCert.namesOk bcNfa 27 5 = true := by decide +kernel

theorem bc_certOk : CertOk bcCert bcNfa 27 := cert_ok bc_graphOk bc_namesOk

end Jbo.Bc
