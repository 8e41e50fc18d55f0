import Verif.GramSyms
/-!
# Model of `terms.c`: which place of which selbri a term fills

The parse tree after `expand_bahe_ui`.  Every node carries a number that stands for its address; what the
pass does to the tree is the list of properties it hangs on nodes, in the order of the calls.  Messages on
stderr are left out.
-/

namespace Jbo.Terms

/-- Tree nodes (`nodes.h:122-190`): a brivla, a zei-lujvo, a cmavo with its text, any other terminal, a
non-terminal with its children.  The numbers stand for addresses. -/
inductive Node
  | brivla (id : Nat)
  | zei (id : Nat)
  | cmavo (id : Nat) (s : Sel) (w : String)
  | leaf (id : Nat)
  | nt (id : Nat) (t : NT) (cs : List Node)
deriving Repr

def Node.id : Node → Nat
  | .brivla i => i
  | .zei i => i
  | .cmavo i _ _ => i
  | .leaf i => i
  | .nt i _ _ => i

/-- How the program may fail: an assertion, `abort()`, an array index out of range, a null pointer, the
use of a variable that has no value.  `depth` is not a failure of the program: the recursion of the
model is bounded by a counter. -/
inductive Crash
  | assertion | abort | bounds | null | uninit | depth
deriving DecidableEq, Repr

abbrev M := Except Crash

/-! ## Access to children (`functions.c`) -/

/-- A node is a non-terminal of type `t`. -/
def Node.isNT (x : Node) (t : NT) : Bool :=
  match x with
  | .nt _ t' _ => t' == t
  | _ => false

/-- `x->data.nonterm.children` after an assertion that `x` is a non-terminal. -/
def Node.children : Node → M (List Node)
  | .nt _ _ cs => .ok cs
  | _ => .error .assertion

/-- `type_check` (`functions.c:460-465`). -/
def typeCheck (x : Node) (t : NT) : M Unit := if x.isNT t then .ok () else .error .assertion

/-- `nch` (`functions.c:476-481`). -/
def nch (x : Node) : M Nat := return (← x.children).length

/-- `child_ref` (`functions.c:494-503`). -/
def childRef (x : Node) (i : Nat) : M Node := do
  match (← x.children)[i]? with
  | some c => .ok c
  | none => .error .assertion

/-- `find_nth_child` (`functions.c:512-536`); `n` counts from 1. -/
def findNth (x : Node) (n : Nat) (t : NT) : M (Option Node) := do
  return ((← x.children).filter (·.isNT t))[n - 1]?

/-- A pointer that is used without a test. -/
def deref : Option Node → M Node
  | some x => .ok x
  | none => .error .null

/-- `assert(p)` on a pointer. -/
def asserted : Option Node → M Node
  | some x => .ok x
  | none => .error .assertion

/-- The loop of `strip_attitudinal` (`functions.c:616-620`): it skips words of selma'o BAhE; past the last
child the assertion fails. -/
def skipBahe : List Node → M Node
  | .cmavo _ .BAhE _ :: rest => skipBahe rest
  | c :: _ => .ok c
  | [] => .error .assertion

/-- `strip_attitudinal` (`functions.c:602-624`).  For a terminal that is no cmavo the function returns
without a value. -/
def stripAttitudinal : Node → M Node
  | .cmavo i s w => .ok (.cmavo i s w)
  | .nt _ .augmented cs => skipBahe cs
  | .nt .. => .error .assertion
  | _ => .error .uninit

/-- `maybe_strip_attitudinal` (`functions.c:628-636`). -/
def maybeStrip (x : Node) : M Node := if x.isNT .augmented then stripAttitudinal x else .ok x

/-- The words under a child as `find_nth_cmavo_child` sees them (`functions.c:570-590`): an AUGMENTED child is
opened. -/
def opened : Node → List Node
  | .nt _ .augmented cs => cs
  | c => [c]

/-- A cmavo of the selma'o `s`. -/
def Node.isSel (x : Node) (s : Sel) : Bool :=
  match x with
  | .cmavo _ s' _ => s' == s
  | _ => false

/-- `find_nth_cmavo_child(x, 1, selmao)` (`functions.c:555-594`). -/
def findCmavo (x : Node) (s : Sel) : M (Option Node) := do
  return ((← x.children).flatMap opened).find? (·.isSel s)

/-! ## Vectors of terms -/

/-- `MAX_TERMS_IN_VECTOR`, `MAX_POS` (`terms.c:22`, `27`). -/
def maxTerms : Nat := 20
def maxPos : Nat := 20

/-- `TermVectorEntry` (`terms.c:37-48`): a bare sumti, one with FA (101 is `fai`), one with `fi'a`, one
with a tag; the number is that of the TERM node. -/
inductive Entry
  | pos (id : Nat)
  | fa (p : Nat) (id : Nat)
  | fiha (id : Nat)
  | tag (id : Nat)
deriving DecidableEq, Repr

/-- `FAI_OFFSET` (`terms.c:32`). -/
def faiOffset : Nat := 101

/-- `LinkConvEntry` (`terms.c:56-77`). -/
inductive LC
  | links (es : List Entry)
  | se (conv : Nat) (id : Nat)
  | jai
  | jaiTag (tag : Nat) (tu2 : Nat)
deriving DecidableEq, Repr

/-- `tv_catenate` (`terms.c:98-122`). -/
def tvCatenate (a b : List Entry) : M (List Entry) :=
  if a.length + b.length ≤ maxTerms then .ok (a ++ b) else .error .assertion

/-- The append functions `lc_append_…` (`terms.c:142-186`). -/
def lcAppend (lc : List LC) (e : LC) : M (List LC) :=
  if lc.length < maxTerms then .ok (lc ++ [e]) else .error .assertion

/-- `recover_se_conv` (`terms.c:197-225`). -/
def recoverSe (x : Node) : M Nat := do
  match ← stripAttitudinal x with
  | .cmavo _ .SE w =>
    if w = "se" then .ok 2 else if w = "te" then .ok 3 else if w = "ve" then .ok 4 else if w = "xe" then .ok 5
    else .error .abort
  | _ => .error .assertion

/-- `recover_fa_conv` (`terms.c:226-266`). -/
def recoverFa (x : Node) : M Nat := do
  match ← stripAttitudinal x with
  | .cmavo _ .FA w =>
    if w = "fi'a" then .ok 0 else if w = "fa" then .ok 1 else if w = "fe" then .ok 2 else if w = "fi" then .ok 3
    else if w = "fo" then .ok 4 else if w = "fu" then .ok 5 else if w = "fai" then .ok faiOffset
    else .error .abort
  | _ => .error .assertion

/-- The type of the first child of a TERM (`tc->data.nonterm.type`, read without a test of the kind of
node; a terminal cannot stand there and is taken as an assertion). -/
def ntOf : Node → M NT
  | .nt _ t _ => .ok t
  | _ => .error .assertion

/-- The `switch` on the kind of term (`terms.c:325-366` and `1595-1636`, the same code twice): the entry, or
nothing. -/
def entryOf (t : Node) : M (Option Entry) := do
  let tc ← childRef t 0
  match ← ntOf tc with
  | .termPlainSumti => .ok (some (.pos t.id))
  | .termPlacedSumti => do
    let p ← recoverFa (← childRef tc 0)
    .ok (some (if p = 0 then .fiha t.id else .fa p t.id))
  | .termTaggedSumti | .taggedTermset => .ok (some (.tag t.id))
  | _ => .ok none

/-- Storing an entry: there is no test of the size of the array. -/
def store (vv : List Entry) : Option Entry → M (List Entry)
  | none => .ok vv
  | some e => if vv.length < maxTerms then .ok (vv ++ [e]) else .error .bounds

/-- The body of the loop of `tv_build` for one `terms_1` (`terms.c:298-366`). -/
def buildOne (vv : List Entry) (t1 : Node) : M (List Entry) := do
  typeCheck t1 .terms1
  if (← nch t1) > 1 then return vv
  let t2 ← childRef t1 0
  typeCheck t2 .terms2
  if (← nch t2) > 1 then return vv
  let t ← childRef t2 0
  typeCheck t .term
  store vv (← entryOf t)

/-- The loop of `tv_build` (`terms.c:285-368`), from the last term to the first.  The counter bounds the
recursion of the model. -/
def buildLoop : Nat → Node → List Entry → M (List Entry)
  | 0, _, _ => .error .depth
  | fuel + 1, xx, vv => do
    match ← xx.children with
    | [t1] => buildOne vv t1
    | [xx', t1] => buildLoop fuel xx' (← buildOne vv t1)
    | _ => .error .abort

/-- `tv_build` (`terms.c:267-374`). -/
def tvBuild (fuel : Nat) (x : Node) : M (List Entry) := do
  typeCheck x .terms
  return (← buildLoop fuel x []).reverse

/-! ## Places -/

/-- `PlaceType` (`terms.c:431-435`); `PT_JAI` is never stored. -/
inductive PT
  | ord
  | tag (tag : Nat) (tu2 : Nat)
deriving DecidableEq, Repr

/-- `Place` (`terms.c:446-453`). -/
structure Place where
  type : PT
  valid : Bool
  taken : Bool
  pos : Nat
deriving DecidableEq, Repr

/-- What the label of a term refers to: the constructors of `XTermTag` (`nodes.h:181-247`), with the
numbers of the nodes. -/
inductive Head
  | brivla (x : Nat)
  | goha (x : Nat)
  | me (sumti : Nat)
  | nuha (op : Nat)
  | numberMoi (n : Nat) (moi : Nat)
  | abstraction (nu : Nat)
  | zei (x : Nat)
deriving DecidableEq, Repr

/-- A label of a term (`XTermTag`): what it refers to, the number of the place, and the tag with the
tanru unit if it is the place made by `jai` with a tag (the type is then `TTT_JAITAG`). -/
structure Label where
  head : Head
  pos : Nat
  jai : Option (Nat × Nat)
deriving DecidableEq, Repr

/-- The properties that the pass hangs on nodes. -/
inductive Ev
  | label (term : Nat) (l : Label)
  | conv (node : Nat) (p : Nat)
  | dontGloss (node : Nat)
  | brac (node : Nat)
  | done (tu1 : Nat)
  | vectors (ms : Nat) (pre post : List Entry)
deriving DecidableEq, Repr

/-- `fixup_term_place` (`terms.c:456-495`).  The node of an entry is always a TERM. -/
def fixup (term : Nat) (pl : Place) (h : Head) : Ev :=
  .label term ⟨h, pl.pos, match pl.type with
    | .ord => none
    | .tag t u => some (t, u)⟩

/-- The two arrays of `assign_places` (`terms.c:629-636`). -/
structure Arrays where
  place : Nat → Place
  fai : Nat → Place

/-- Writing one element. -/
def put (f : Nat → Place) (i : Nat) (p : Place) : Nat → Place := fun j => if j = i then p else f j

/-- An element; the arrays have 20. -/
def at_ (f : Nat → Place) (i : Nat) : M Place := if i < maxPos then .ok (f i) else .error .bounds

/-- The first loop of `assign_terms_to_places` (`terms.c:504-527`). -/
def assignFa (h : Head) : List Entry → Arrays → M (Arrays × List Ev)
  | [], a => .ok (a, [])
  | .fa p id :: es, a => do
    if p < faiOffset then
      let pl ← at_ a.place p
      if pl.valid then
        let (b, evs) ← assignFa h es { a with place := put a.place p { pl with taken := true } }
        return (b, fixup id pl h :: evs)
      else assignFa h es a
    else
      let q := p - faiOffset + 1
      let pl ← at_ a.fai q
      if pl.valid then
        let (b, evs) ← assignFa h es { a with fai := put a.fai q { pl with taken := true } }
        return (b, fixup id pl h :: evs)
      else assignFa h es a
  | _ :: es, a => assignFa h es a

/-- `while (place[base].taken) ++base;` (`terms.c:534`), with `n` elements left of the array. -/
def freeFrom (f : Nat → Place) : Nat → Nat → M Nat
  | 0, _ => .error .bounds
  | n + 1, base => if (f base).taken then freeFrom f n (base + 1) else .ok base

/-- The index of the first place that is free, from `base` on (`terms.c:534`). -/
def firstFree (f : Nat → Place) (base : Nat) : M Nat := freeFrom f (maxPos - base) base

theorem firstFree_eq (f : Nat → Place) (base : Nat) : firstFree f base =
    if base < maxPos then (if (f base).taken then firstFree f (base + 1) else .ok base) else .error .bounds := by
  unfold firstFree
  split
  · rename_i h
    obtain ⟨n, hn⟩ : ∃ n, maxPos - base = n + 1 := ⟨maxPos - base - 1, by omega⟩
    rw [hn, show maxPos - (base + 1) = n by omega, freeFrom]
  · rename_i h
    rw [show maxPos - base = 0 by omega, freeFrom]

/-- The second loop (`terms.c:529-556`).  Since the array is left before, the test `base > MAX_POS` never
holds. -/
def assignPos (h : Head) : List Entry → Nat → Arrays → M (Arrays × List Ev)
  | [], _, a => .ok (a, [])
  | .pos id :: es, base, a => do
    let k ← firstFree a.place base
    let pl := a.place k
    let (b, evs) ← assignPos h es (k + 1) { a with place := put a.place k { pl with taken := true } }
    return (b, fixup id pl h :: evs)
  | .fa p _ :: es, base, a => assignPos h es (if p < faiOffset then p + 1 else base) a
  | _ :: es, base, a => assignPos h es base a

/-- `assign_terms_to_places` (`terms.c:496-559`). -/
def assignTerms (h : Head) (es : List Entry) (base : Nat) (a : Arrays) : M (Arrays × List Ev) := do
  let (a, e1) ← assignFa h es a
  let (a, e2) ← assignPos h es base a
  return (a, e1 ++ e2)

/-- The arrays at the start (`terms.c:638-646`). -/
def Arrays.init : Arrays :=
  ⟨fun i => ⟨.ord, true, false, i⟩, fun _ => ⟨.ord, false, false, 0⟩⟩

/-- `temp = place[1]; place[1] = place[c]; place[c] = temp;` -/
def swap1 (f : Nat → Place) (c : Nat) : Nat → Place := put (put f 1 (f c)) c (f 1)

/-- `for (j=1; ; j++) if (!fai[j].valid) break;` (`terms.c:667-669`, `687-689`), with `n` elements left of the
array. -/
def invalidFrom (f : Nat → Place) : Nat → Nat → M Nat
  | 0, _ => .error .bounds
  | n + 1, j => if (f j).valid then invalidFrom f n (j + 1) else .ok j

/-- The index of the first element that is not used, from `j` on (`terms.c:667-669`, `687-689`). -/
def firstInvalid (f : Nat → Place) (j : Nat) : M Nat := invalidFrom f (maxPos - j) j

theorem firstInvalid_step (f : Nat → Place) (j : Nat) : firstInvalid f j =
    if j < maxPos then (if (f j).valid then firstInvalid f (j + 1) else .ok j) else .error .bounds := by
  unfold firstInvalid
  split
  · rename_i h
    obtain ⟨n, hn⟩ : ∃ n, maxPos - j = n + 1 := ⟨maxPos - j - 1, by omega⟩
    rw [hn, show maxPos - (j + 1) = n by omega, invalidFrom]
  · rename_i h
    rw [show maxPos - j = 0 by omega, invalidFrom]

/-- The `fai` array moved up to the first unused element, with `place[1]` put at the bottom
(`terms.c:664-673`, `684-693`). -/
def faiShift (a : Arrays) : M (Nat → Place) := do
  let j ← firstInvalid a.fai 1
  return put (fun i => if 1 < i ∧ i ≤ j then a.fai (i - 1) else a.fai i) 1 (a.place 1)

/-- One entry of the chain (`terms.c:648-702`). -/
def chainStep (h : Head) (a : Arrays) : LC → M (Arrays × List Ev)
  | .se c _ => .ok ({ a with place := swap1 a.place c }, [])
  | .jaiTag t u => do
    let f ← faiShift a
    return (⟨put a.place 1 { a.place 1 with type := .tag t u, valid := true }, f⟩, [])
  | .jai => do
    let f ← faiShift a
    return (⟨put a.place 1 { a.place 1 with type := .ord, valid := true }, f⟩, [])
  | .links es => assignTerms h es 2 a

/-- The loop over the chain (`terms.c:648-702`), from the last entry to the first. -/
def chain (h : Head) : List LC → Arrays → M (Arrays × List Ev)
  | [], a => .ok (a, [])
  | e :: rest, a => do
    let (a, e1) ← chain h rest a
    let (a, e2) ← chainStep h a e
    return (a, e1 ++ e2)

/-- `assign_places` (`terms.c:618-709`). -/
def assignPlaces (pre post : List Entry) (lc : List LC) (h : Head) : M (List Ev) := do
  let (a, e1) ← chain h lc .init
  let (a, e2) ← assignTerms h pre 1 a
  let (_, e3) ← assignTerms h post 2 a
  return e1 ++ e2 ++ e3

/-- The loop of `assign_conversion` (`terms.c:575-611`) over the chain from the last entry: the permuted
places (as numbers) and the SE that lose their gloss. -/
def convLoop : List LC → (Nat → Nat) → (Nat → Nat) × List Ev
  | [], f => (f, [])
  | .se c id :: rest, f =>
    let g := fun j => if j = c then f 1 else if j = 1 then f c else f j
    let r := convLoop rest g
    (r.1, .dontGloss id :: r.2)
  | .links _ :: rest, f => convLoop rest f
  | .jai :: rest, f => convLoop rest f
  | .jaiTag .. :: _, f => (f, [])

/-- `assign_conversion` (`terms.c:560-617`). -/
def assignConversion (lc : List LC) (node : Nat) : List Ev :=
  let r := convLoop lc.reverse id
  r.2 ++ [.conv node (r.1 1)]

/-! ## Down into the selbri -/

/-- `check_tu1_for_links` (`terms.c:1574-1646`): the loop along `linkargs` and `links`. -/
def linkLoop : Nat → Node → List Entry → M (List Entry)
  | 0, _, _ => .error .depth
  | fuel + 1, la, tv => do
    let tm ← asserted (← findNth la 1 .term)
    let lk ← findNth la 1 .links
    let tv ← store tv (← entryOf tm)
    match lk with
    | none => return tv
    | some la' => linkLoop fuel la' tv

/-- The vector of linked sumti of a `tanru_unit_1`, the property set by `check_tu1_for_links`
(`terms.c:1574-1646`).  In the code it is computed once for the whole tree and then looked up. -/
def linksOf (fuel : Nat) (tu1 : Node) : M (Option (List Entry)) := do
  typeCheck tu1 .tanruUnit1
  let cs ← tu1.children
  if cs.length > 1 then
    let la ← childRef tu1 1
    typeCheck la .linkargs
    return some (← linkLoop fuel la [])
  else return none

mutual
/-- `process_tanru_unit_2_args` (`terms.c:710-912`). -/
def tu2Args : Nat → Node → List Entry → List Entry → List LC → M (List Ev)
  | 0, _, _, _, _ => .error .depth
  | fuel + 1, tu2, pre, post, lc => do
    typeCheck tu2 .tanruUnit2
    let c1 ← maybeStrip (← childRef tu2 0)
    match c1 with
    | .cmavo i .GOhA _ => return (← assignPlaces pre post lc (.goha i)) ++ assignConversion lc i
    | .cmavo _ .ME _ => do
      let s ← asserted (← findNth tu2 1 .sumti)
      return .brac s.id :: (← assignPlaces pre post lc (.me s.id))
    | .cmavo i .NUhA _ => do
      let m ← findNth tu2 1 .mexOperator
      let m ← deref m
      return (← assignPlaces pre post lc (.nuha m.id)) ++ assignConversion lc i ++ [.brac m.id]
    | .cmavo .. => return []
    | .brivla i => return (← assignPlaces pre post lc (.brivla i)) ++ assignConversion lc i
    | .zei i => return (← assignPlaces pre post lc (.zei i)) ++ assignConversion lc i
    | .leaf _ => .error .abort
    | .nt _ .numberMoiTu2 _ => do
      let norl ← childRef c1 0
      let moi ← findCmavo c1 .MOI
      let moi ← deref moi
      return (← assignPlaces pre post lc (.numberMoi norl.id moi.id)) ++
        (if 0 < pre.length ∨ 0 < post.length then [.brac norl.id] else [])
    | .nt _ .keSelbri3Tu2 _ => do
      let s3 ← asserted (← findNth c1 1 .selbri3)
      selbri3Args fuel s3 pre post lc
    | .nt _ .seTu2 _ => do
      let se ← childRef c1 0
      let u ← asserted (← findNth c1 1 .tanruUnit2)
      let c ← recoverSe se
      let lc' ← lcAppend lc (.se c se.id)
      tu2Args fuel u pre post lc'
    | .nt _ .jaiTagTu2 _ => do
      let t ← findNth c1 1 .tag
      let u ← findNth c1 1 .tanruUnit2
      let t ← asserted t
      let u ← asserted u
      let lc' ← lcAppend lc (.jaiTag t.id u.id)
      return .brac u.id :: (← tu2Args fuel u pre post lc')
    | .nt _ .jaiTu2 _ => do
      let u ← asserted (← findNth c1 1 .tanruUnit2)
      let lc' ← lcAppend lc .jai
      tu2Args fuel u pre post lc'
    | .nt _ .naheTu2 _ => do
      let u ← asserted (← findNth c1 1 .tanruUnit2)
      tu2Args fuel u pre post lc
    | .nt _ .abstraction _ => do
      let nns ← childRef c1 0
      typeCheck nns .nuNaiSeq
      let c2 ← maybeStrip (← childRef nns 0)
      match c2 with
      | .cmavo i .NU _ => return (← assignPlaces pre post lc (.abstraction i)) ++ assignConversion lc i
      | _ => return []
    | .nt .. => return []

/-- `process_tanru_unit_1_args` (`terms.c:913-943`). -/
def tu1Args : Nat → Node → List Entry → List Entry → List LC → M (List Ev)
  | 0, _, _, _, _ => .error .depth
  | fuel + 1, tu1, pre, post, lc => do
    let xtv ← linksOf fuel tu1
    let tu2 ← childRef tu1 0
    match xtv with
    | some v => do
      let lc' ← lcAppend lc (.links v)
      return (← tu2Args fuel tu2 pre post lc') ++ [.done tu1.id]
    | none => return (← tu2Args fuel tu2 pre post lc) ++ [.done tu1.id]

/-- `process_selbri_6_args` (`terms.c:944-981`). -/
def selbri6Args : Nat → Node → List Entry → List Entry → List LC → M (List Ev)
  | 0, _, _, _, _ => .error .depth
  | fuel + 1, s6, pre, post, lc => do
    typeCheck s6 .selbri6
    if (← nch s6) = 1 then
      let tu ← childRef s6 0
      if (← nch tu) > 1 then return []
      else tu1Args fuel (← childRef tu 0) pre post lc
    else
      match ← findNth s6 1 .tanruUnit with
      | some _ => selbri6Args fuel (← deref (← findNth s6 1 .selbri6)) pre post lc
      | none => do
        let cs ← findNth s6 1 .selbri
        let cs6 ← findNth s6 1 .selbri6
        let e1 ← selbriArgs fuel (← deref cs) pre post lc
        let e2 ← selbri6Args fuel (← deref cs6) pre post lc
        return e1 ++ e2

/-- `process_selbri_5_args` (`terms.c:982-996`): the loop along the right spine. -/
def selbri5Args : Nat → Node → List Entry → List Entry → List LC → M (List Ev)
  | 0, _, _, _, _ => .error .depth
  | fuel + 1, s5, pre, post, lc => do
    let e1 ← selbri6Args fuel (← deref (← findNth s5 1 .selbri6)) pre post lc
    match ← findNth s5 1 .selbri5 with
    | none => return e1
    | some s5' => return e1 ++ (← selbri5Args fuel s5' pre post lc)

/-- The loop of `process_selbri_3_args` along a `selbri_4` with connectives (`terms.c:1019-1033`). -/
def selbri4Loop : Nat → Node → List Entry → List Entry → List LC → M (List Ev)
  | 0, _, _, _, _ => .error .depth
  | fuel + 1, s4, pre, post, lc => do
    let e1 ← match ← findNth s4 1 .selbri5 with
      | some s5 => selbri5Args fuel s5 pre post lc
      | none => do
        let ks3 ← asserted (← findNth s4 1 .keSelbri3)
        let cs3 ← asserted (← findNth ks3 1 .selbri3)
        selbri3Args fuel cs3 pre post lc
    match ← findNth s4 1 .selbri4 with
    | none => return e1
    | some s4' => return e1 ++ (← selbri4Loop fuel s4' pre post lc)

/-- `process_selbri_3_args` (`terms.c:997-1041`). -/
def selbri3Args : Nat → Node → List Entry → List Entry → List LC → M (List Ev)
  | 0, _, _, _, _ => .error .depth
  | fuel + 1, s3, pre, post, lc => do
    typeCheck s3 .selbri3
    let s4 ← deref (← findNth s3 1 .selbri4)
    if (← nch s4) > 1 then selbri4Loop fuel s4 pre post lc
    else selbri5Args fuel (← deref (← findNth s4 1 .selbri5)) pre post lc

/-- The `while` that goes to the last `selbri_2` of a chain of CO (`terms.c:1074-1076`). -/
def lastSelbri2 : Nat → Node → M Node
  | 0, _ => .error .depth
  | fuel + 1, s2 => do
    if (← nch s2) > 1 then lastSelbri2 fuel (← deref (← findNth s2 1 .selbri2)) else return s2

/-- The `do` loop that goes through tags and NA to the `selbri_2` (`terms.c:1053-1063`). -/
def findSelbri2 : Nat → Node → M Node
  | 0, _ => .error .depth
  | fuel + 1, cs => do
    let s1 ← deref (← findNth cs 1 .selbri1)
    match ← findNth s1 1 .selbri2 with
    | some s2 => return s2
    | none => findSelbri2 fuel (← asserted (← findNth s1 1 .selbri))

/-- `process_selbri_args` (`terms.c:1042-1085`). -/
def selbriArgs : Nat → Node → List Entry → List Entry → List LC → M (List Ev)
  | 0, _, _, _, _ => .error .depth
  | fuel + 1, s, pre, post, lc => do
    typeCheck s .selbri
    let s2 ← findSelbri2 fuel s
    let s3 ← childRef s2 0
    if (← nch s2) > 1 then
      let e1 ← selbri3Args fuel s3 pre [] lc
      let s2' ← lastSelbri2 fuel s2
      let s3' ← childRef s2' 0
      return e1 ++ (← selbri3Args fuel s3' [] post lc)
    else selbri3Args fuel s3 pre post lc
end

/-! ## Down into the sentence -/

/-- The terms of the `tail_terms` child: none if there is no such child or it has no terms. -/
def tailOf (fuel : Nat) (x : Node) : M (Option (List Entry)) := do
  match ← findNth x 1 .tailTerms with
  | none => return none
  | some tt => match ← findNth tt 1 .terms with
    | none => return none
    | some ttc => return some (← tvBuild fuel ttc)

/-- Where a sentence keeps its parts (`terms.c:400-412`, `1373-1386`): the node itself or its only child. -/
def sentenceBody (s : Node) : M Node := do
  match ← s.children with
  | [.nt i .noCuSentence cs] => return .nt i .noCuSentence cs
  | [.nt i .observativeSentence cs] => return .nt i .observativeSentence cs
  | _ => return s

/-- `process_main_selbri` (`terms.c:1086-1119`).  `none` for `post` is a vector that was never assigned:
it is copied here. -/
def mainSelbriArgs (fuel : Nat) (ms : Node) (pre : List Entry) (post : Option (List Entry)) : M (List Ev) := do
  typeCheck ms .mainSelbri
  match post with
  | none => .error .uninit
  | some post => do
    let s ← childRef ms 0
    return .vectors ms.id pre post :: (← selbriArgs fuel s pre post [])

/-- `tv_catenate(&tail_terms, post, &new_post)` where `post` may be a vector without a value. -/
def postAfter (tail : Option (List Entry)) (post : Option (List Entry)) : M (Option (List Entry)) :=
  match tail, post with
  | none, p => .ok p
  | some _, none => .error .uninit
  | some t, some p => do return some (← tvCatenate t p)

/-- The loop to the `sentence` of a `subsentence` (`terms.c:384-398`). -/
def innerSentence : Nat → Node → M Node
  | 0, _ => .error .depth
  | fuel + 1, sss => do
    if (← nch sss) = 2 then innerSentence fuel (← childRef sss 1) else childRef sss 0

/-- The loop to the innermost `gek_sentence` (`terms.c:1157-1161`). -/
def innerGek : Nat → Node → M Node
  | 0, _ => .error .depth
  | fuel + 1, gs => do
    let gsc ← childRef gs 0
    if gsc.isNT .gek then return gs
    else innerGek fuel (← deref (← findNth gs 1 .gekSentence))

mutual
/-- `process_subsentence` (`terms.c:375-427`). -/
def subsentenceArgs : Nat → Node → List Entry → Option (List Entry) → M (List Ev)
  | 0, _, _, _ => .error .depth
  | fuel + 1, ss, pre, post => do
    typeCheck ss .subsentence
    let sen ← innerSentence fuel ss
    typeCheck sen .sentence
    let body ← sentenceBody sen
    let terms ← findNth body 1 .terms
    let btail ← asserted (← findNth body 1 .bridiTail)
    match terms with
    | some t => do
      let head ← tvBuild fuel t
      let pre' ← tvCatenate pre head
      bridiTailArgs fuel btail pre' post
    | none => bridiTailArgs fuel btail pre post

/-- `process_bridi_tail_3` (`terms.c:1120-1191`). -/
def bridiTail3Args : Nat → Node → List Entry → Option (List Entry) → M (List Ev)
  | 0, _, _, _ => .error .depth
  | fuel + 1, bt3, pre, post => do
    typeCheck bt3 .bridiTail3
    let c1 ← childRef bt3 0
    if c1.isNT .mainSelbri then
      let tail ← tailOf fuel bt3
      let post' ← postAfter tail post
      mainSelbriArgs fuel c1 pre post'
    else
      typeCheck c1 .gekSentence
      let gs ← innerGek fuel c1
      let ss1 ← findNth gs 1 .subsentence
      let ss2 ← findNth gs 2 .subsentence
      let ss1 ← asserted ss1
      let ss2 ← asserted ss2
      let tail ← tailOf fuel gs
      let post' ← postAfter tail post
      let e1 ← subsentenceArgs fuel ss1 pre post'
      let e2 ← subsentenceArgs fuel ss2 pre post'
      return e1 ++ e2

/-- `process_bridi_tail_2` (`terms.c:1192-1241`). -/
def bridiTail2Args : Nat → Node → List Entry → Option (List Entry) → M (List Ev)
  | 0, _, _, _ => .error .depth
  | fuel + 1, bt2, pre, post => do
    match ← bt2.children with
    | [bt3] => bridiTail3Args fuel bt3 pre post
    | _ => do
      let a ← asserted (← findNth bt2 1 .bridiTail2)
      let b ← asserted (← findNth bt2 2 .bridiTail2)
      let tail ← tailOf fuel bt2
      let post' ← postAfter tail post
      let e1 ← bridiTail2Args fuel a pre post'
      let e2 ← bridiTail2Args fuel b pre post'
      return e1 ++ e2

/-- `process_bridi_tail_1` (`terms.c:1242-1291`). -/
def bridiTail1Args : Nat → Node → List Entry → Option (List Entry) → M (List Ev)
  | 0, _, _, _ => .error .depth
  | fuel + 1, bt1, pre, post => do
    match ← bt1.children with
    | [bt2] => bridiTail2Args fuel bt2 pre post
    | _ => do
      let a ← asserted (← findNth bt1 1 .bridiTail1)
      let b ← asserted (← findNth bt1 1 .bridiTail2)
      let tail ← tailOf fuel bt1
      let post' ← postAfter tail post
      let e1 ← bridiTail1Args fuel a pre post'
      let e2 ← bridiTail2Args fuel b pre post'
      return e1 ++ e2

/-- `process_bridi_tail` (`terms.c:1292-1354`).  Without tail terms the first part is given the vector
`new_post`, which was never assigned (`terms.c:1346`, `1350`). -/
def bridiTailArgs : Nat → Node → List Entry → Option (List Entry) → M (List Ev)
  | 0, _, _, _ => .error .depth
  | fuel + 1, bt, pre, post => do
    match ← bt.children with
    | [bt1] => bridiTail1Args fuel bt1 pre post
    | _ => do
      let btc ← asserted (← findNth bt 1 .bridiTail)
      let bt1 ← asserted (← findNth bt 1 .bridiTail1)
      let tail ← tailOf fuel bt
      match tail with
      | some t => do
        let post' ← postAfter (some t) post
        let e1 ← bridiTail1Args fuel bt1 pre post'
        let e2 ← bridiTailArgs fuel btc pre post'
        return e1 ++ e2
      | none => do
        let e1 ← bridiTail1Args fuel bt1 pre none
        let e2 ← bridiTailArgs fuel btc pre post
        return e1 ++ e2
end

/-! ## The whole text -/

/-- `process_statement_3` (`terms.c:1355-1428`). -/
def statement3Args (fuel : Nat) (x : Node) : M (List Ev) := do
  typeCheck x .statement3
  match ← x.children with
  | [sent] => do
    let _ ← sent.children
    let body ← sentenceBody sent
    let terms ← findNth body 1 .terms
    let btail ← asserted (← findNth body 1 .bridiTail)
    match terms with
    | some t => bridiTailArgs fuel btail (← tvBuild fuel t) (some [])
    | none => bridiTailArgs fuel btail [] (some [])
  | _ => return []

/-- `process_abstraction` (`terms.c:1429-1439`). -/
def abstractionArgs (fuel : Nat) (x : Node) : M (List Ev) := do
  let ss ← childRef x 1
  typeCheck ss .subsentence
  subsentenceArgs fuel ss [] (some [])

/-- `process_relative_clause` (`terms.c:1440-1454`). -/
def relativeClauseArgs (fuel : Nat) (x : Node) : M (List Ev) := do
  let fc ← childRef x 0
  if fc.isNT .fullRelativeClause then
    match ← findNth fc 1 .subsentence with
    | some ss => subsentenceArgs fuel ss [] (some [])
    | none => return []
  else return []

/-- `process_metalinguistic` (`terms.c:1455-1479`). -/
def metalinguisticArgs (fuel : Nat) (x : Node) : M (List Ev) := do
  let terms ← findNth x 1 .terms
  let mm ← asserted (← findNth x 1 .metalinguisticMainSelbri)
  let s ← childRef mm 0
  match terms with
  | some t => selbriArgs fuel s (← tvBuild fuel t) [] []
  | none => selbriArgs fuel s [] [] []

/-- What `scan_for_sentence_parents` does at one node (`terms.c:1499-1507`). -/
def sentenceAt (fuel : Nat) (x : Node) : M (List Ev) :=
  match x with
  | .nt _ .statement3 _ => statement3Args fuel x
  | .nt _ .abstraction _ => abstractionArgs fuel x
  | .nt _ .relativeClause _ => relativeClauseArgs fuel x
  | .nt _ .metalinguistic _ => metalinguisticArgs fuel x
  | _ => .ok []

/-- What `scan_for_selbri_in_sumti` does at one node (`terms.c:1518-1563`). -/
def sumtiAt (fuel : Nat) (x : Node) : M (List Ev) := do
  match x with
  | .nt _ .sumti5b _ => selbriArgs fuel (← asserted (← findNth x 1 .selbri)) [] [] []
  | .nt _ .sumtiTail1a _ => selbriArgs fuel (← asserted (← findNth x 1 .selbri)) [] [] []
  | _ => return []

mutual
/-- The recursive scans over the tree, a node before its children (`terms.c:1480-1517` and the others). -/
def scan (f : Node → M (List Ev)) : Node → M (List Ev)
  | .nt i t cs => do
    let e1 ← f (.nt i t cs)
    return e1 ++ (← scanList f cs)
  | _ => .ok []
def scanList (f : Node → M (List Ev)) : List Node → M (List Ev)
  | [] => .ok []
  | c :: cs => do
    let e1 ← scan f c
    return e1 ++ (← scanList f cs)
end

/-- `scan_tu1_phase1` (`terms.c:1647-1670`) computes the vectors; here it can only fail. -/
def phase1At (fuel : Nat) (x : Node) : M (List Ev) := do
  match x with
  | .nt _ .tanruUnit1 _ =>
    let _ ← linksOf fuel x
    return []
  | _ => return []

/-- The nodes of type `tanru_unit_1` that are marked as done. -/
def isDone (log : List Ev) (id : Nat) : Bool := log.any (· == .done id)

mutual
/-- `scan_tu1_phase2` (`terms.c:1671-1711`); the log so far tells which nodes are done. -/
def phase2 (fuel : Nat) : Node → List Ev → M (List Ev)
  | .nt i t cs, log => do
    let log ← (if t = .tanruUnit1 then do
      match ← linksOf fuel (.nt i t cs) with
      | some v =>
        if isDone log i then return log
        else
          let tu2 ← childRef (.nt i t cs) 0
          return log ++ (← tu2Args fuel tu2 [] [] [.links v]) ++ [.done i]
      | none => return log
      else return log)
    phase2List fuel cs log
  | _, log => .ok log
def phase2List (fuel : Nat) : List Node → List Ev → M (List Ev)
  | [], log => .ok log
  | c :: cs, log => do phase2List fuel cs (← phase2 fuel c log)
end

/-- `terms_processing` (`terms.c:1712-1719`). -/
def termsProcessing (fuel : Nat) (top : Node) : M (List Ev) := do
  let _ ← scan (phase1At fuel) top
  let e1 ← scan (sentenceAt fuel) top
  let e2 ← scan (sumtiAt fuel) top
  phase2 fuel top (e1 ++ e2)

/-- The labels of a term, in the order in which they are shown. -/
def labels (log : List Ev) (term : Nat) : List Label :=
  log.filterMap (fun e => match e with
    | .label t l => if t = term then some l else none
    | _ => none)

end Jbo.Terms
