import Verif.Elide
/-!
# What the elision monitor promises
-/

namespace Jbo.Elide

/-! ## The words that the parser gets -/

/-- The words that a parser gets without the monitor, when the same things happen. -/
def plain (G : Grammar) : Src → List Ev → List Tok
  | _, [] => []
  | s, .lex :: es => (lexPlain G s).2 :: plain G (lexPlain G s).1 es
  | s, .advance :: es => plain G (s.advance G) es
  | s, _ :: es => plain G s es

/-- The words among what comes out. -/
def words : List Out → List Tok
  | [] => []
  | .word t :: os => t :: words os
  | _ :: os => words os

/-- Words are skipped only when the word last read is one that cannot be left out (or none has been read). -/
def SkipsLate (G : Grammar) : Src → Bool → List Ev → Prop
  | _, _, [] => True
  | s, _, .lex :: es => SkipsLate G (lexPlain G s).1 (isElidable (lexPlain G s).2.node).1 es
  | s, e, .advance :: es => e = false ∧ SkipsLate G (s.advance G) e es
  | s, e, _ :: es => SkipsLate G s e es

/-! ## What a set of words to keep must be like -/

section keep
variable (haz : Nat → Nat → Prop)

/-- Of the words before number `last`, keeping those in `keep` leaves the meaning: when word `k` could be
shifted too early, while word `j` was next, then there is a word to stop it. -/
def Guarded (last : Nat) (keep : List Nat) : Prop :=
  ∀ k, k ∈ keep ∨ k = last → ∀ j, j < k → haz k j → ∃ g ∈ keep, j ≤ g ∧ g < k

/-- A choice of words before `last`, from left to right. -/
def Choice (last : Nat) (keep : List Nat) : Prop := keep.Pairwise (· < ·) ∧ ∀ k ∈ keep, k < last

/-- A sufficient choice from which nothing more can be taken away. -/
def Minimal (last : Nat) (keep : List Nat) : Prop :=
  Choice last keep ∧ Guarded haz last keep ∧ ∀ less, less.Sublist keep → less ≠ keep → ¬ Guarded haz last less

end keep

/-! ## What the parser does with the words in the buffer -/

/-- One buffer of words (all but the last may be left out): how many were read, whether the last one read
has not been shifted yet, in which states the parser was with which word before it (and whether it
shifted the word there), before which words a subscript was reduced, and the two flags about numbers. -/
structure View where
  group : List Tok
  read : Nat
  ahead : Bool
  seen : List (Nat × Nat × Bool)
  subs : List Nat
  pa : Bool
  cur : Bool
  src : Src

def View.start (ws : List Tok) : View := ⟨[], 0, false, [], [], false, false, ⟨ws, false⟩⟩

/-- Words up to one that cannot be left out. -/
def group (G : Grammar) : List Tok → List Tok × Src
  | [] => ([⟨G.eofMark, none, 0⟩], ⟨[], true⟩)
  | t :: ts => if (isElidable t.node).1 then (t :: (group G ts).1, (group G ts).2) else ([t], ⟨ts, false⟩)

/-- The next buffer. -/
def Src.group (G : Grammar) (s : Src) : List Tok × Src :=
  if s.ended then ([⟨0, none, 0⟩], s) else Elide.group G s.rest

/-- The parser asks for words when it has none, and shifts a word when it has one. -/
def View.allows (v : View) : Ev → Bool
  | .lex => !v.ahead
  | .shift _ => v.ahead
  | .reduce _ _ => true
  | .advance => decide (v.read = v.group.length)

def View.step (G : Grammar) (v : View) : Ev → View
  | .lex =>
    if v.read < v.group.length then { v with read := v.read + 1, ahead := true, pa := v.cur }
    else
      let g := v.src.group G
      ⟨g.1, 1, true, [], [], v.cur, if g.1.length = 1 then G.paEtc.contains (g.1.headD ⟨0, none, 0⟩).value else v.cur, g.2⟩
  | .shift st => { v with ahead := false, seen := (v.read - 1, st, true) :: v.seen }
  | .reduce st rule =>
    { v with
      seen := if v.ahead then (v.read - 1, st, false) :: v.seen else v.seen
      subs := if G.subscript rule then (if v.ahead then v.read - 1 else v.read) :: v.subs else v.subs }
  | .advance => { v with src := v.src.advance G }

/-- The sequence of events is one that the parser can produce. -/
def Valid (G : Grammar) : View → List Ev → Prop
  | _, [] => True
  | v, e :: es => v.allows e = true ∧ Valid G (v.step G e) es

/-- Word `k` could have been shifted while word `j` was next.  It is no hazard if `j` is the `cu` before
`k` and both could be shifted where `cu` was. -/
def Seen (G : Grammar) (v : View) (k j : Nat) : Prop :=
  j < k ∧ ∃ t, v.group[k]? = some t ∧ ∃ st sh, (j, st, sh) ∈ v.seen ∧ G.canShift st t.value = true ∧
    ¬ (sh = true ∧ k + 1 = v.group.length ∧ j + 1 = k ∧ ∃ c, v.group[j]? = some c ∧ c.value = G.cu)

def isBoi (t : Tok) : Bool := (isElidable t.node).2
def hasFree (t : Tok) : Bool := match t.node with | some (.cmavo _ f _) => f | _ => false

/-- The number of the word that cannot be left out.  It is the last one; but if that one belongs to a free
modifier of a `boi` or `ve'o` before it which does not end a subscript, it is the `boi` or `ve'o`. -/
def View.last (v : View) : Nat :=
  match v.group[v.group.length - 2]? with
  | some t => if 2 ≤ v.group.length ∧ isBoi t = true ∧ hasFree t = true ∧ ¬ (v.group.length - 1) ∈ v.subs
    then v.group.length - 2 else v.group.length - 1
  | none => v.group.length - 1

/-- The numbers before and after the words would become one. -/
def Merges (v : View) (k j : Nat) : Prop :=
  k = v.last ∧ j = 0 ∧ v.pa = true ∧ (∃ t, v.group[0]? = some t ∧ isBoi t = true) ∧
    ∃ t, v.group[v.last]? = some t ∧ isMarker t.node = true

/-- The hazards of a buffer. -/
def Hazard (G : Grammar) (v : View) (k j : Nat) : Prop := Seen G v k j ∨ Merges v k j

/-- The report for a buffer all of whose words have been shifted. -/
structure Reports (G : Grammar) (v : View) (r : Report) : Prop where
  words : r.words = v.group.take v.last
  omitAll : r.omitAll = true ↔ 0 < v.last ∧ Guarded (Hazard G v) v.last []
  patterns : ∀ p, p ∈ r.patterns ↔ Minimal (Hazard G v) v.last p ∧ p ≠ [] ∧ p.length < v.last
  once : r.patterns.Nodup
  table : ∀ k j, j < k → k ≤ v.last → ((r.hazards.getD k []).getD j false = true ↔ Hazard G v k j)

/-! ## All that comes out -/

/-- The word that a call of `yylex` gives. -/
def View.give (G : Grammar) (v : View) : Tok :=
  if v.read < v.group.length then v.group.getD v.read ⟨0, none, 0⟩ else (v.src.group G).1.headD ⟨0, none, 0⟩

/-- Memory outside is written when a subscript is reduced just when the buffer is full and all its words
have been shifted. -/
def Full (G : Grammar) (v : View) : Ev → Prop
  | .reduce _ rule => G.subscript rule = true ∧ v.ahead = false ∧ v.read = v.group.length ∧ 32 ∣ v.group.length
  | _ => False

/-- That never happens in this sequence. -/
def Fits (G : Grammar) : View → List Ev → Prop
  | _, [] => True
  | v, e :: es => ¬ Full G v e ∧ Fits G (v.step G e) es

/-- What comes out: a word for each call of `yylex`, and a report for each word that is shifted and cannot be
left out. -/
def Outs (G : Grammar) : View → List Ev → List Out → Prop
  | _, [], os => os = []
  | v, .lex :: es, os => ∃ os', os = .word (v.give G) :: os' ∧ Outs G (v.step G .lex) es os'
  | v, .shift st :: es, os =>
    if v.read = v.group.length then ∃ r os', os = .report r :: os' ∧ Reports G v r ∧ Outs G (v.step G (.shift st)) es os'
    else Outs G (v.step G (.shift st)) es os
  | v, .reduce st rule :: es, os => Outs G (v.step G (.reduce st rule)) es os
  | v, .advance :: es, os => Outs G (v.step G .advance) es os

/-- The view after some events. -/
def View.after (G : Grammar) (v : View) (es : List Ev) : View := es.foldl (fun v e => v.step G e) v

end Jbo.Elide
