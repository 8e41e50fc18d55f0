import Verif.Categ

/-!
# What the marker passes should do

`Stag` is only used as an alphabet; no function of the model is used here.
-/

namespace Jbo.CategSpec
open Jbo Jbo.Categ

/-- The text without the markers. -/
def words (ts : List Tok) : List Tok := ts.filter (fun t => t.kind ≠ .marker)

/-! ## Tenses -/

/-- Regular expressions over the words of tenses. -/
inductive RE
  | void
  | eps
  | tok (t : Stag)
  | alt (a b : RE)
  | seq (a b : RE)
  | star (a : RE)
deriving DecidableEq, Repr

/-- Finite sequences of words of a language. -/
inductive Star (P : List Stag → Prop) : List Stag → Prop
  | nil : Star P []
  | cons {u v : List Stag} : P u → Star P v → Star P (u ++ v)

/-- The language of a regular expression. -/
def RE.lang : RE → List Stag → Prop
  | .void, _ => False
  | .eps, w => w = []
  | .tok t, w => w = [t]
  | .alt a b, w => a.lang w ∨ b.lang w
  | .seq a b, w => ∃ u v, w = u ++ v ∧ a.lang u ∧ b.lang v
  | .star a, w => Star a.lang w

/-- `x|`, and a rule that leads back to its own beginning. -/
def RE.opt (a : RE) : RE := .alt .eps a
def RE.plus (a : RE) : RE := .seq a (.star a)

infixr:65 " ⬝ " => RE.seq
instance : Add RE := ⟨RE.alt⟩

/-- `stag_nfa.in:21-24`. -/
def timeOffset : RE := .plus (.tok .PU ⬝ .opt (.tok .NAI) ⬝ .opt (.tok .ZI))
/-- `stag_nfa.in:26-31`. -/
def zehaPuNai : RE := (.tok .ZEhA ⬝ .tok .PU ⬝ .tok .NAI) + (.tok .ZEhA ⬝ .tok .PU) + .tok .ZEhA
/-- `stag_nfa.in:33-48`. -/
def numberRE : RE :=
  .tok .PA ⬝ .star (.tok .PA + .tok .BY + .tok .BU + .tok .LAU + .tok .FOI + .tok .TEI)
/-- `stag_nfa.in:50-55`. -/
def intervalProperty : RE := (.tok .TAhE ⬝ .opt (.tok .NAI)) + (.tok .ZAhO ⬝ .opt (.tok .NAI)) +
  (numberRE ⬝ .tok .ROI ⬝ .opt (.tok .NAI))
/-- `stag_nfa.in:57-60`. -/
def intervalPropertySeq : RE := .plus intervalProperty
/-- `stag_nfa.in:62-68`. -/
def timeRE : RE :=
  (.opt (.tok .ZI) ⬝ .opt timeOffset ⬝ .opt zehaPuNai ⬝ intervalPropertySeq) +
  (.opt (.tok .ZI) ⬝ .opt timeOffset ⬝ zehaPuNai) +
  (.opt (.tok .ZI) ⬝ timeOffset) +
  .tok .ZI
/-- `stag_nfa.in:70-73`. -/
def spaceOffset : RE := .plus (.tok .FAhA ⬝ .opt (.tok .NAI) ⬝ .opt (.tok .VA))
/-- `stag_nfa.in:75-83`. -/
def vvfn : RE :=
  (.tok .VEhA ⬝ .tok .VIhA ⬝ .tok .FAhA ⬝ .opt (.tok .NAI)) +
  (.tok .VEhA ⬝ .tok .VIhA) +
  (.tok .VEhA ⬝ .tok .FAhA ⬝ .opt (.tok .NAI)) +
  .tok .VEhA +
  (.tok .VIhA ⬝ .tok .FAhA ⬝ .opt (.tok .NAI)) +
  .tok .VIhA
/-- `stag_nfa.in:85-88`. -/
def spaceIntProps : RE := .plus (.tok .FEhE ⬝ intervalProperty)
/-- `stag_nfa.in:90-94`. -/
def spaceInterval : RE := (.opt vvfn ⬝ spaceIntProps) + vvfn
/-- `stag_nfa.in:96-99`. -/
def mohiSpaceOffset : RE := .tok .MOhI ⬝ .tok .FAhA ⬝ .opt (.tok .NAI) ⬝ .opt (.tok .VA)
/-- `stag_nfa.in:101-107`. -/
def spaceRE : RE :=
  (.opt (.tok .VA) ⬝ .opt spaceOffset ⬝ .opt spaceInterval ⬝ mohiSpaceOffset) +
  (.opt (.tok .VA) ⬝ .opt spaceOffset ⬝ spaceInterval) +
  (.opt (.tok .VA) ⬝ spaceOffset) +
  .tok .VA
/-- `stag_nfa.in:109-113`. -/
def tsst : RE := (.opt (.tok .NAhE) ⬝ timeRE ⬝ .opt spaceRE) + (.opt (.tok .NAhE) ⬝ spaceRE ⬝ .opt timeRE)
/-- `stag_nfa.in:115-122`: `simple_tense_modal`. -/
def tenseRE : RE :=
  (.opt (.tok .NAhE) ⬝ .opt (.tok .SE) ⬝ .tok .BAI ⬝ .opt (.tok .NAI) ⬝ .opt (.tok .KI)) +
  (.opt (.tok .NAhE) ⬝ .opt tsst ⬝ .tok .CAhA ⬝ .opt (.tok .KI)) +
  (.opt (.tok .NAhE) ⬝ tsst ⬝ .opt (.tok .KI)) +
  .tok .KI +
  .tok .CUhE

/-- The selma'o of the words of tenses. -/
def selOf : Stag → Option Sel
  | .BAI => some .BAI | .BU => none | .BY => some .BY | .CAhA => some .CAhA | .CUhE => some .CUhE
  | .FAhA => some .FAhA | .FEhE => some .FEhE | .FOI => some .FOI | .KI => some .KI | .LAU => some .LAU
  | .MOhI => some .MOhI | .NAhE => some .NAhE | .NAI => some .NAI | .PA => some .PA | .PU => some .PU
  | .ROI => some .ROI | .SE => some .SE | .TAhE => some .TAhE | .TEI => some .TEI | .VA => some .VA
  | .VEhA => some .VEhA | .VIhA => some .VIhA | .ZAhO => some .ZAhO | .ZEhA => some .ZEhA | .ZI => some .ZI

/-- A token stands for a word of tenses: a cmavo of that selma'o, or a word with bu. -/
def Reads (t : Tok) (s : Stag) : Prop :=
  (∃ sel w, selOf s = some sel ∧ t = .cmavo sel w) ∨ (s = .BU ∧ ∃ w, t = .bu w)

/-- Token by token. -/
inductive ReadsAll : List Tok → List Stag → Prop
  | nil : ReadsAll [] []
  | cons {t : Tok} {s : Stag} {ts : List Tok} {w : List Stag} : Reads t s → ReadsAll ts w →
      ReadsAll (t :: ts) (s :: w)

/-- A sequence of tokens that stands for a word of the language. -/
def In (L : List Stag → Prop) (ts : List Tok) : Prop := ∃ w, ReadsAll ts w ∧ L w

/-- The beginning of a word of the language. -/
def Beginning (L : List Stag → Prop) (w : List Stag) : Prop := ∃ c, L (w ++ c)

/-- No tense begins here. -/
def NoneHere (L : List Stag → Prop) (ts : List Tok) : Prop :=
  ∀ g r, ts = g ++ r → g ≠ [] → ¬ In L g

/-- `g` is the longest tense at the beginning of `g ++ r`. -/
def Longest (L : List Stag → Prop) (g r : List Tok) : Prop :=
  g ≠ [] ∧ In L g ∧ ∀ g' r', r = g' ++ r' → g' ≠ [] → ¬ In L (g ++ g')

/-- The text with every tense marked, always the longest from the left. -/
inductive Marked (L : List Stag → Prop) : List Tok → List Tok → Prop
  | nil : Marked L [] []
  | plain {x : Tok} {r o : List Tok} : NoneHere L (x :: r) → ¬ In (Beginning L) (x :: r) → Marked L r o →
      Marked L (x :: r) (x :: o)
  | tense {g r o : List Tok} : Longest L g r → Marked L r o →
      Marked L (g ++ r) (.marker .PRIVATE_START_TENSE :: g ++ .marker .PRIVATE_END_TENSE :: o)

/-- Marking from the left arrives at a place where no tense begins, but the whole rest of the text is the
beginning of one. -/
inductive Stuck (L : List Stag → Prop) : List Tok → Prop
  | here {x : Tok} {r : List Tok} : NoneHere L (x :: r) → In (Beginning L) (x :: r) → Stuck L (x :: r)
  | plain {x : Tok} {r : List Tok} : NoneHere L (x :: r) → Stuck L r → Stuck L (x :: r)
  | tense {g r : List Tok} : Longest L g r → Stuck L r → Stuck L (g ++ r)

/-! ## Connectives -/

/-- Some of the optional words, in this order. -/
inductive Opts : List Sel → List Tok → Prop
  | nil : Opts [] []
  | skip {s : Sel} {ss : List Sel} {p : List Tok} : Opts ss p → Opts (s :: ss) p
  | take {s : Sel} {ss : List Sel} {t : Tok} {p : List Tok} : t.isSel s = true → Opts ss p → Opts (s :: ss) (t :: p)

/-- The words behind the place begin with a word `c` with optional words before it, and the token just before the place
is not one more of them. -/
def Leads (ss : List Sel) (c : Sel) (a b : List Tok) : Prop :=
  ∃ p x w, words b = p ++ x :: w ∧ Opts ss p ∧ x.isSel c = true ∧ ∀ t, a.getLast? = some t → ¬ Opts ss (t :: p)

/-- The words before the place end with a word `c` with optional words after it, and the token just behind the place is
not one more of them. -/
def Trails (ss : List Sel) (c : Sel) (a b : List Tok) : Prop :=
  ∃ w x p, words a = w ++ x :: p ∧ Opts ss p ∧ x.isSel c = true ∧ ∀ t, b.head? = some t → ¬ Opts ss (p ++ [t])

/-- An ek, gihek or jek: `[NA] [SE] c [NAI]`. -/
def EkWords (c : Sel) (g : List Tok) : Prop :=
  ∃ p x q, g = p ++ x :: q ∧ Opts [.NA, .SE] p ∧ x.isSel c = true ∧ Opts [.NAI] q

/-- A joik: `[SE] JOI [NAI]` or `[GAhO] [SE] BIhI [NAI] [GAhO]`. -/
def JoikWords (g : List Tok) : Prop :=
  ∃ p x q, g = p ++ x :: q ∧
    ((Opts [.SE] p ∧ x.isSel .JOI = true ∧ Opts [.NAI] q) ∨
     (Opts [.GAhO, .SE] p ∧ x.isSel .BIhI = true ∧ Opts [.NAI, .GAhO] q))

/-- A jek or joik. -/
def Connective (g : List Tok) : Prop := EkWords .JA g ∨ JoikWords g

/-- Tenses joined by jeks and joiks. -/
inductive Tenses (L : List Stag → Prop) : List Tok → Prop
  | one {g : List Tok} : In L g → Tenses L g
  | more {g c r : List Tok} : In L g → Connective c → Tenses L r → Tenses L (g ++ (c ++ r))

/-- Tenses or nothing, then a word of this selma'o. -/
def Follow (L : List Stag → Prop) (s : Sel) (b : List Tok) : Prop :=
  ∃ g x w, b = g ++ x :: w ∧ x.isSel s = true ∧ (g = [] ∨ Tenses L g)

/-- A connective and then `Follow`. -/
def Joined (L : List Stag → Prop) (C : List Tok → Prop) (s : Sel) (b : List Tok) : Prop :=
  ∃ c r, b = c ++ r ∧ C c ∧ Follow L s r

/-- Words of numbers and lerfu. -/
def NumWord (t : Tok) : Prop :=
  (∃ s ∈ [Sel.PA, .BU, .BY, .LAU, .TEI, .FOI], t.isSel s = true) ∨ ∃ w, t = .bu w

/-- Numbers, then a word of this selma'o. -/
def Numbered (s : Sel) (b : List Tok) : Prop :=
  ∃ p x w, b = p ++ x :: w ∧ p ≠ [] ∧ (∀ t ∈ p, NumWord t) ∧ x.isSel s = true

/-- Where a marker may stand, with `a` before and `b` behind. -/
def Place (L : List Stag → Prop) (m : Sel) (a b : List Tok) : Prop :=
  match m with
  | .PRIVATE_START_TENSE => ∃ g w, words b = g ++ w ∧ g ≠ [] ∧ In L g
  | .PRIVATE_END_TENSE => ∃ w g, words a = w ++ g ∧ g ≠ [] ∧ In L g
  | .PRIVATE_START_JEK => Leads [.NA, .SE] .JA a b
  | .PRIVATE_END_JEK => Trails [.NAI] .JA a b
  | .PRIVATE_START_GIHEK => Leads [.NA, .SE] .GIhA a b
  | .PRIVATE_START_EK => Leads [.NA, .SE] .A a b
  | .PRIVATE_START_GUHEK => Leads [.SE] .GUhA a b
  | .PRIVATE_START_JOIK => Leads [.SE] .JOI a b ∨ Leads [.GAhO, .SE] .BIhI a b
  | .PRIVATE_END_JOIK => Trails [.NAI] .JOI a b ∨ Trails [.NAI, .GAhO] .BIhI a b
  | .PRIVATE_START_GEK => Leads [.SE] .GA a b ∨
      ∃ g x w, words b = g ++ x :: w ∧ (Tenses L g ∨ JoikWords g) ∧ x.isSel .GI = true
  | .PRIVATE_I_BO => ∃ x r, words b = x :: r ∧ x.isSel .I = true ∧
      (Follow L .BO r ∨ Joined L Connective .BO r)
  | .PRIVATE_I_JEKJOIK => ∃ x c w, words b = x :: (c ++ w) ∧ x.isSel .I = true ∧ Connective c
  | .PRIVATE_JEK_BO => Joined L (EkWords .JA) .BO (words b)
  | .PRIVATE_JEK_KE => Joined L (EkWords .JA) .KE (words b)
  | .PRIVATE_EK_BO => Joined L (EkWords .A) .BO (words b)
  | .PRIVATE_EK_KE => Joined L (EkWords .A) .KE (words b)
  | .PRIVATE_GIHEK_BO => Joined L (EkWords .GIhA) .BO (words b)
  | .PRIVATE_GIHEK_KE => Joined L (EkWords .GIhA) .KE (words b)
  | .PRIVATE_JOIK_BO => Joined L JoikWords .BO (words b)
  | .PRIVATE_JOIK_KE => Joined L JoikWords .KE (words b)
  | .PRIVATE_NUMBER_MAI => Numbered .MAI (words b)
  | .PRIVATE_NUMBER_ROI => Numbered .ROI (words b)
  | .PRIVATE_NUMBER_MOI => Numbered .MOI (words b)
  | .PRIVATE_NAhE_BO => ∃ x y w, words b = x :: y :: w ∧ x.isSel .NAhE = true ∧ y.isSel .BO = true
  | .PRIVATE_NA_KU => ∃ x y w, words b = x :: y :: w ∧ x.isSel .NA = true ∧ y.isSel .KU = true
  | _ => False

/-- No connective word is left without its markers: there is one marker of each kind for each word. -/
def Complete (ts out : List Tok) : Prop :=
  ∀ m ss, (m, ss) ∈ ([(.PRIVATE_START_JEK, [.JA]), (.PRIVATE_END_JEK, [.JA]), (.PRIVATE_START_GIHEK, [.GIhA]),
    (.PRIVATE_START_EK, [.A]), (.PRIVATE_START_GUHEK, [.GUhA]), (.PRIVATE_START_JOIK, [.JOI, .BIhI]),
    (.PRIVATE_END_JOIK, [.JOI, .BIhI])] : List (Sel × List Sel)) →
    out.count (.marker m) = ts.countP (fun t => ss.any (t.isSel ·))

/-! ## Exactly where the later markers are put -/

/-- From a marker to the next marker of the other kind. -/
def Shut (s e : Sel) (g : List Tok) : Prop := ∃ w, g = .marker s :: (w ++ [.marker e]) ∧ .marker e ∉ w

/-- A marked jek or joik. -/
def ConnG (g : List Tok) : Prop :=
  Shut .PRIVATE_START_JEK .PRIVATE_END_JEK g ∨ Shut .PRIVATE_START_JOIK .PRIVATE_END_JOIK g

/-- Marked tenses joined by marked jeks and joiks. -/
inductive TenseSeq : List Tok → Prop
  | one {g : List Tok} : Shut .PRIVATE_START_TENSE .PRIVATE_END_TENSE g → TenseSeq g
  | more {g c r : List Tok} : Shut .PRIVATE_START_TENSE .PRIVATE_END_TENSE g → ConnG c → TenseSeq r → TenseSeq (g ++ (c ++ r))

/-- Next comes a word of this selma'o, perhaps after marked tenses. -/
def Ahead (s : Sel) (r : List Tok) : Prop := ∃ g x w, r = g ++ x :: w ∧ x.isSel s = true ∧ (g = [] ∨ TenseSeq g)

/-- A marked ek or gihek. -/
def CoG (s c : Sel) (g : List Tok) : Prop :=
  ∃ p x q, g = .marker s :: (p ++ x :: q) ∧ Opts [.NA, .SE] p ∧ x.isSel c = true ∧ Opts [.NAI] q

/-- Going through a text: a marker is put in at every place that calls for it, and nowhere else.  `S m a b` says that
the place with `a` before and `b` behind calls for `m`. -/
inductive Put (S : Sel → List Tok → List Tok → Prop) : List Tok → List Tok → List Tok → Prop
  | nil (a : List Tok) : Put S a [] []
  | yes {m : Sel} {a r o : List Tok} {x : Tok} : S m a (x :: r) → Put S (a ++ [x]) r o →
      Put S a (x :: r) (.marker m :: x :: o)
  | no {a r o : List Tok} {x : Tok} : (∀ m, ¬ S m a (x :: r)) → Put S (a ++ [x]) r o → Put S a (x :: r) (x :: o)

/-- `I [jek | joik] [tenses] BO`. -/
def IboSite (m : Sel) (_ b : List Tok) : Prop :=
  m = .PRIVATE_I_BO ∧ ∃ x c r, b = x :: (c ++ r) ∧ x.isSel .I = true ∧ (c = [] ∨ ConnG c) ∧ Ahead .BO r

/-- `I (jek | joik)` that is not so marked. -/
def IjekSite (m : Sel) (a b : List Tok) : Prop :=
  m = .PRIVATE_I_JEKJOIK ∧ a.getLast? ≠ some (.marker .PRIVATE_I_BO) ∧ ∃ x y r, b = x :: y :: r ∧ x.isSel .I = true ∧
    (y = .marker .PRIVATE_START_JEK ∨ y = .marker .PRIVATE_START_JOIK)

/-- A connective `C`, perhaps tenses, and BO or KE.  A jek or joik after I or a tense does not count. -/
def KeboSite (C : List Tok → Prop) (bo ke : Sel) (guard : Bool) (m : Sel) (a b : List Tok) : Prop :=
  (guard = true → ∀ t, a.getLast? = some t → t.isSel .I = false ∧ t ≠ .marker .PRIVATE_END_TENSE) ∧
  ∃ c r, b = c ++ r ∧ C c ∧ ((m = bo ∧ Ahead .BO r) ∨ (m = ke ∧ Ahead .KE r))

/-- The beginning of a number that is followed by a word of this selma'o. -/
def NumSite (s n : Sel) (m : Sel) (a b : List Tok) : Prop :=
  m = n ∧ (∀ t, a.getLast? = some t → ¬ NumWord t) ∧ Numbered s b

/-- Two words. -/
def PairSite (s1 s2 n : Sel) (m : Sel) (_ b : List Tok) : Prop :=
  m = n ∧ ∃ x y r, b = x :: y :: r ∧ x.isSel s1 = true ∧ y.isSel s2 = true

/-- The passes from `categorize_ibo` on. -/
def Late (ts out : List Tok) : Prop :=
  ∃ t1 t2 t3 t4 t5 t6 t7 t8 t9 t10,
    Put IboSite [] ts t1 ∧ Put IjekSite [] t1 t2 ∧
    Put (KeboSite (Shut .PRIVATE_START_JEK .PRIVATE_END_JEK) .PRIVATE_JEK_BO .PRIVATE_JEK_KE true) [] t2 t3 ∧
    Put (KeboSite (CoG .PRIVATE_START_EK .A) .PRIVATE_EK_BO .PRIVATE_EK_KE false) [] t3 t4 ∧
    Put (KeboSite (Shut .PRIVATE_START_JOIK .PRIVATE_END_JOIK) .PRIVATE_JOIK_BO .PRIVATE_JOIK_KE true) [] t4 t5 ∧
    Put (KeboSite (CoG .PRIVATE_START_GIHEK .GIhA) .PRIVATE_GIHEK_BO .PRIVATE_GIHEK_KE false) [] t5 t6 ∧
    Put (NumSite .MAI .PRIVATE_NUMBER_MAI) [] t6 t7 ∧ Put (NumSite .ROI .PRIVATE_NUMBER_ROI) [] t7 t8 ∧
    Put (NumSite .MOI .PRIVATE_NUMBER_MOI) [] t8 t9 ∧ Put (PairSite .NAhE .BO .PRIVATE_NAhE_BO) [] t9 t10 ∧
    Put (PairSite .NA .KU .PRIVATE_NA_KU) [] t10 out

/-- One marker for each GA and for each GI just behind a tense or joik. -/
def GekComplete (ts out : List Tok) : Prop :=
  out.count (.marker .PRIVATE_START_GEK) = ts.countP (·.isSel .GA) +
    ((ts.zip ts.tail).countP fun p => (p.1 == .marker .PRIVATE_END_TENSE || p.1 == .marker .PRIVATE_END_JOIK) &&
      p.2.isSel .GI)

/-- The markers of the passes before `categorize_gek`. -/
def earlyMs : List Sel := [.PRIVATE_START_TENSE, .PRIVATE_END_TENSE, .PRIVATE_START_JEK, .PRIVATE_END_JEK, .PRIVATE_START_GIHEK,
  .PRIVATE_START_EK, .PRIVATE_START_GUHEK, .PRIVATE_START_JOIK, .PRIVATE_END_JOIK]

/-- The later passes put in every marker that is called for, and no other: from a text with the words `ts` and the
markers of the early passes the mark for geks and then the rest. -/
def Exact (ts out : List Tok) : Prop :=
  ∃ t6 t7, words t6 = ts ∧ (∀ m, .marker m ∈ t6 → m ∈ earlyMs) ∧ t7.filter (· != .marker .PRIVATE_START_GEK) = t6 ∧
    GekComplete t6 t7 ∧ Late t7 out

end Jbo.CategSpec
