import Verif.TermsSpec
/-!
# Which terms belong to which selbri

Written from the grammar `rpc2x.y`, not from `terms.c`.  A parse tree is read as a small abstract tree; the
rules of the language are stated on abstract trees.
-/

namespace Jbo.Terms.Spec

/-- The children of a given type. -/
def kids (cs : List Node) (t : NT) : List Node := cs.filter (·.isNT t)

/-- A word, alone or with indicators: `AUGMENTED` holds words of BAhE, the word and its indicators. -/
inductive Word : Node → Nat → Sel → String → Prop
  | alone {i s w} : Word (.cmavo i s w) i s w
  | marked {j i s w bs r} : (∀ b ∈ bs, ∃ k v, b = .cmavo k .BAhE v) → s ≠ .BAhE →
      Word (.nt j .augmented (bs ++ .cmavo i s w :: r)) i s w

/-! ## Terms -/

/-- The words of FA that name a place. -/
def faPlaces : List (String × Nat) := [("fa", 1), ("fe", 2), ("fi", 3), ("fo", 4), ("fu", 5), ("fai", faiOffset)]

/-- The words of SE. -/
def sePlaces : List (String × Nat) := [("se", 2), ("te", 3), ("ve", 4), ("xe", 5)]

/-- One term: a bare sumti, one with FA, `fi'a` or a tag, or something that fills no place. -/
inductive TermR : Node → Option Entry → Prop
  | plain {i j cs r} : TermR (.nt i .term (.nt j .termPlainSumti cs :: r)) (some (.pos i))
  | placed {i j c cs r k w p} : Word c k .FA w → (w, p) ∈ faPlaces →
      TermR (.nt i .term (.nt j .termPlacedSumti (c :: cs) :: r)) (some (.fa p i))
  | asked {i j c cs r k} : Word c k .FA "fi'a" →
      TermR (.nt i .term (.nt j .termPlacedSumti (c :: cs) :: r)) (some (.fiha i))
  | tagged {i j cs r} : TermR (.nt i .term (.nt j .termTaggedSumti cs :: r)) (some (.tag i))
  | tagset {i j cs r} : TermR (.nt i .term (.nt j .taggedTermset cs :: r)) (some (.tag i))
  | other {i j t cs r} : t ∉ [NT.termPlainSumti, .termPlacedSumti, .termTaggedSumti, .taggedTermset] →
      TermR (.nt i .term (.nt j t cs :: r)) none

/-- One member of a list of terms.  Terms joined with `pe'e` or `ce'e` are passed over: the program does not
label them. -/
inductive Terms1R : Node → Option Entry → Prop
  | one {i j t e} : TermR t e → Terms1R (.nt i .terms1 [.nt j .terms2 [t]]) e
  | pehe {i cs} : 1 < cs.length → Terms1R (.nt i .terms1 cs) none
  | cehe {i j cs} : 1 < cs.length → Terms1R (.nt i .terms1 [.nt j .terms2 cs]) none

/-- A list of terms, from left to right. -/
inductive TermsR : Node → List Entry → Prop
  | one {i t1 e} : Terms1R t1 e → TermsR (.nt i .terms [t1]) e.toList
  | more {i x t1 es e} : TermsR x es → Terms1R t1 e → TermsR (.nt i .terms [x, t1]) (es ++ e.toList)

/-- The sumti linked with `be … bei …`, from left to right. -/
inductive LinkedR : Node → List Entry → Prop
  | last {i t cs tm ms e} : kids cs .term = tm :: ms → TermR tm e → kids cs .links = [] → LinkedR (.nt i t cs) e.toList
  | more {i t cs tm ms e lk ls es} : kids cs .term = tm :: ms → TermR tm e → kids cs .links = lk :: ls → LinkedR lk es →
      LinkedR (.nt i t cs) (e.toList ++ es)

/-- The tail terms among children; `none` if there are no terms there. -/
inductive TailR : List Node → Option (List Entry) → Prop
  | none {cs} : kids cs .tailTerms = [] → TailR cs none
  | vau {cs i ts r} : kids cs .tailTerms = .nt i .tailTerms ts :: r → kids ts .terms = [] → TailR cs none
  | terms {cs i ts r x xs es} : kids cs .tailTerms = .nt i .tailTerms ts :: r → kids ts .terms = x :: xs → TermsR x es →
      TailR cs (some es)

/-- The terms before the selbri among children. -/
inductive HeadR : List Node → List Entry → Prop
  | none {cs} : kids cs .terms = [] → HeadR cs []
  | terms {cs x xs es} : kids cs .terms = x :: xs → TermsR x es → HeadR cs es

/-! ## Bridi -/

/-- A bridi: a selbri with its tail terms; two tails that share terms after them, `gi'e` and `ge … gi`;
two tails joined with `gi'e … ke`; terms before a tail. -/
inductive Br
  | main (ms : Node) (tail : Option (List Entry))
  | both (a b : Br) (tail : Option (List Entry))
  | ke (a b : Br) (tail : Option (List Entry))
  | under (head : List Entry) (a : Br)

/-- A selbri with the terms before and after it that belong to it. -/
structure Share where
  ms : Node
  pre : List Entry
  post : List Entry

/-- **The rule**: terms before a group of tails belong to every selbri of the group, and so do the terms after
the group; nearer terms stand nearer to the selbri. -/
def give : Br → List Entry → List Entry → List Share
  | .main ms t, pre, post => [⟨ms, pre, t.getD [] ++ post⟩]
  | .both a b t, pre, post => give a pre (t.getD [] ++ post) ++ give b pre (t.getD [] ++ post)
  | .ke a b t, pre, post => give a pre (t.getD [] ++ post) ++ give b pre (t.getD [] ++ post)
  | .under h a, pre, post => give a (pre ++ h) post

/-- Going through `KE`, tags and `NA` to the `gek_sentence` with the two parts. -/
inductive GekR : Node → List Node → Prop
  | here {i j ks cs} : GekR (.nt i .gekSentence (.nt j .gek ks :: cs)) (.nt j .gek ks :: cs)
  | inner {i c cs g gs ks} : c.isNT .gek = false → kids (c :: cs) .gekSentence = g :: gs → GekR g ks →
      GekR (.nt i .gekSentence (c :: cs)) ks

/-- Going through prenexes to the sentence. -/
inductive SenR : Node → Node → Prop
  | here {i s} : SenR (.nt i .subsentence [s]) s
  | prenex {i p x s} : SenR x s → SenR (.nt i .subsentence [p, x]) s

/-- The children of a sentence, those of the rule `no_cu_sentence` or `observative_sentence` if it is one. -/
inductive BodyR : Node → List Node → Prop
  | noCu {i j cs} : BodyR (.nt i .sentence [.nt j .noCuSentence cs]) cs
  | observative {i j cs} : BodyR (.nt i .sentence [.nt j .observativeSentence cs]) cs
  | cu {i cs} : 1 < cs.length → BodyR (.nt i .sentence cs) cs

/-- The bridi that a node of the parse tree stands for. -/
inductive BrR : Node → Br → Prop
  | sub {ss s cs h bt bts a} : SenR ss s → BodyR s cs → HeadR cs h → kids cs .bridiTail = bt :: bts → BrR bt a →
      BrR ss (.under h a)
  | tail {i j cs a} : BrR (.nt j .bridiTail1 cs) a → BrR (.nt i .bridiTail [.nt j .bridiTail1 cs]) a
  | tailKe {i cs x xs y ys t a b} : 1 < cs.length → kids cs .bridiTail1 = x :: xs → kids cs .bridiTail = y :: ys →
      TailR cs t → BrR x a → BrR y b → BrR (.nt i .bridiTail cs) (.ke a b t)
  | tail1 {i j cs a} : BrR (.nt j .bridiTail2 cs) a → BrR (.nt i .bridiTail1 [.nt j .bridiTail2 cs]) a
  | tail1and {i cs x xs y ys t a b} : 1 < cs.length → kids cs .bridiTail1 = x :: xs → kids cs .bridiTail2 = y :: ys →
      TailR cs t → BrR x a → BrR y b → BrR (.nt i .bridiTail1 cs) (.both a b t)
  | tail2 {i j cs a} : BrR (.nt j .bridiTail3 cs) a → BrR (.nt i .bridiTail2 [.nt j .bridiTail3 cs]) a
  | tail2and {i cs x y ys t a b} : 1 < cs.length → kids cs .bridiTail2 = x :: y :: ys →
      TailR cs t → BrR x a → BrR y b → BrR (.nt i .bridiTail2 cs) (.both a b t)
  | main {i j ks cs t} : TailR (.nt j .mainSelbri ks :: cs) t →
      BrR (.nt i .bridiTail3 (.nt j .mainSelbri ks :: cs)) (.main (.nt j .mainSelbri ks) t)
  | gek {i g cs ks x y ys t a b} : GekR g ks → kids ks .subsentence = x :: y :: ys → TailR ks t → BrR x a → BrR y b →
      BrR (.nt i .bridiTail3 (g :: cs)) (.both a b t)

/-! ## Selbri -/

/-- The words that carry places. -/
inductive Leaf
  | brivla (i : Nat)
  | goha (i : Nat)
  | zei (i : Nat)
  | me (sumti : Nat)
  | nuha (i op : Nat)
  | moi (n moi : Nat)
  | nu (i : Nat)
deriving DecidableEq

/-- A selbri, as far as places are concerned: the modifying parts of a tanru are left out.  `joined` are
parts joined logically, `co` is an inverted tanru, `mute` a unit with `cei` or with connected
abstractors. -/
inductive Sb
  | leaf (l : Leaf)
  | links (es : List Entry) (a : Sb)
  | se (c id : Nat) (a : Sb)
  | jai (a : Sb)
  | jaiTag (t u : Nat) (a : Sb)
  | joined (a b : Sb)
  | co (a b : Sb)
  | mute

/-- A word with the terms that fill its places and the conversions around it, the outermost first. -/
structure Job where
  leaf : Leaf
  pre : List Entry
  post : List Entry
  lc : List LC

/-- **The rule**: every part of a logical connection takes all terms; of an inverted tanru the first part takes
the terms before it, the last part those after it; conversions and linked sumti stand between the terms
and the word.  The program does not label terms of a unit with `cei` or with connected abstractors, and says so
(`terms.c:885-889`). -/
def jobs : Sb → List Entry → List Entry → List LC → List Job
  | .leaf l, pre, post, lc => [⟨l, pre, post, lc⟩]
  | .links es a, pre, post, lc => jobs a pre post (lc ++ [.links es])
  | .se c id a, pre, post, lc => jobs a pre post (lc ++ [.se c id])
  | .jai a, pre, post, lc => jobs a pre post (lc ++ [.jai])
  | .jaiTag t u a, pre, post, lc => jobs a pre post (lc ++ [.jaiTag t u])
  | .joined a b, pre, post, lc => jobs a pre post lc ++ jobs b pre post lc
  | .co a b, pre, post, lc => jobs a pre [] lc ++ jobs b [] post lc
  | .mute, _, _, _ => []

/-- The longest chain. -/
def Sb.chain : Sb → Nat
  | .leaf _ => 0
  | .links _ a => a.chain + 1
  | .se _ _ a => a.chain + 1
  | .jai a => a.chain + 1
  | .jaiTag _ _ a => a.chain + 1
  | .joined a b => max a.chain b.chain
  | .co a b => max a.chain b.chain
  | .mute => 0

/-- Going through tags and `NA` to the children of the `selbri_2`. -/
inductive CoreR : Node → List Node → Prop
  | here {i j k cs ds es} {xs ys : List Node} : kids cs .selbri1 = .nt j .selbri1 ds :: xs → kids ds .selbri2 = .nt k .selbri2 es :: ys →
      CoreR (.nt i .selbri cs) es
  | inner {i j cs ds s es} {xs ys : List Node} : kids cs .selbri1 = .nt j .selbri1 ds :: xs → kids ds .selbri2 = [] →
      kids ds .selbri = s :: ys → CoreR s es → CoreR (.nt i .selbri cs) es

/-- The last part of an inverted tanru. -/
inductive LastR : List Node → Node → Prop
  | here {x} : LastR [x] x
  | more {cs j ds x} {ys : List Node} : 1 < cs.length → kids cs .selbri2 = .nt j .selbri2 ds :: ys → LastR ds x → LastR cs x

/-- The first child of a tanru unit, as a word. -/
inductive LeafR : List Node → Leaf → Prop
  | brivla {i r} : LeafR (.brivla i :: r) (.brivla i)
  | brivlaM {j i bs r cs} : (∀ b ∈ bs, ∃ k v, b = .cmavo k .BAhE v) →
      LeafR (.nt j .augmented (bs ++ .brivla i :: r) :: cs) (.brivla i)
  | zei {i r} : LeafR (.zei i :: r) (.zei i)
  | zeiM {j i bs r cs} : (∀ b ∈ bs, ∃ k v, b = .cmavo k .BAhE v) →
      LeafR (.nt j .augmented (bs ++ .zei i :: r) :: cs) (.zei i)
  | goha {c i w r} : Word c i .GOhA w → LeafR (c :: r) (.goha i)
  | me {c i w r s ss} : Word c i .ME w → kids (c :: r) .sumti = s :: ss → LeafR (c :: r) (.me s.id)
  | nuha {c i w r s ss} : Word c i .NUhA w → kids (c :: r) .mexOperator = s :: ss → LeafR (c :: r) (.nuha i s.id)
  | moi {j n t ds m k w cs r} : t ≠ .augmented → Word m k .MOI w →
      LeafR (.nt j .numberMoiTu2 (.nt n t ds :: m :: cs) :: r) (.moi n k)
  | nu {j k c i w cs ds r} : Word c i .NU w → LeafR (.nt j .abstraction (.nt k .nuNaiSeq (c :: ds) :: cs) :: r) (.nu i)

/-- The selbri that a node of the parse tree stands for. -/
inductive SbR : Node → Sb → Prop
  | selbri {s j cs a} : CoreR s [.nt j .selbri3 cs] → SbR (.nt j .selbri3 cs) a → SbR s a
  | selbriCo {s j cs ds k es a b} : CoreR s (.nt j .selbri3 cs :: ds) → ds ≠ [] → LastR (.nt j .selbri3 cs :: ds) (.nt k .selbri3 es) →
      SbR (.nt j .selbri3 cs) a → SbR (.nt k .selbri3 es) b → SbR s (.co a b)
  | tanru {i cs s4 xs a} : kids cs .selbri4 = s4 :: xs → SbR s4 a → SbR (.nt i .selbri3 cs) a
  | conn {i cs s5 xs a} : kids cs .selbri5 = s5 :: xs → kids cs .selbri4 = [] → SbR s5 a → SbR (.nt i .selbri4 cs) a
  | connMore {i cs s5 xs s4 ys a b} : 1 < cs.length → kids cs .selbri5 = s5 :: xs → kids cs .selbri4 = s4 :: ys → SbR s5 a → SbR s4 b →
      SbR (.nt i .selbri4 cs) (.joined a b)
  | connKe {i cs j t ds xs s3 zs s4 ys a b} : 1 < cs.length → kids cs .selbri5 = [] → kids cs .keSelbri3 = .nt j t ds :: xs →
      kids ds .selbri3 = s3 :: zs → kids cs .selbri4 = s4 :: ys → SbR s3 a → SbR s4 b → SbR (.nt i .selbri4 cs) (.joined a b)
  | bo {i cs s6 xs a} : kids cs .selbri6 = s6 :: xs → kids cs .selbri5 = [] → SbR s6 a → SbR (.nt i .selbri5 cs) a
  | boMore {i cs s6 xs s5 ys a b} : kids cs .selbri6 = s6 :: xs → kids cs .selbri5 = s5 :: ys → SbR s6 a → SbR s5 b →
      SbR (.nt i .selbri5 cs) (.joined a b)
  | unit {i j k cs a} : SbR (.nt k .tanruUnit1 cs) a → SbR (.nt i .selbri6 [.nt j .tanruUnit [.nt k .tanruUnit1 cs]]) a
  | cei {i j cs} : 1 < cs.length → SbR (.nt i .selbri6 [.nt j .tanruUnit cs]) .mute
  | unitBo {i cs tu ts s6 xs a} : 1 < cs.length → kids cs .tanruUnit = tu :: ts → kids cs .selbri6 = s6 :: xs → SbR s6 a →
      SbR (.nt i .selbri6 cs) a
  | guhek {i cs s ss s6 xs a b} : 1 < cs.length → kids cs .tanruUnit = [] → kids cs .selbri = s :: ss → kids cs .selbri6 = s6 :: xs →
      SbR s a → SbR s6 b → SbR (.nt i .selbri6 cs) (.joined a b)
  | plain {i j cs a} : SbR (.nt j .tanruUnit2 cs) a → SbR (.nt i .tanruUnit1 [.nt j .tanruUnit2 cs]) a
  | linked {i j k cs ls r es a} : SbR (.nt j .tanruUnit2 cs) a → LinkedR (.nt k .linkargs ls) es →
      SbR (.nt i .tanruUnit1 (.nt j .tanruUnit2 cs :: .nt k .linkargs ls :: r)) (.links es a)
  | word {i cs l} : LeafR cs l → SbR (.nt i .tanruUnit2 cs) (.leaf l)
  | ke {i j cs r s3 xs a} : kids cs .selbri3 = s3 :: xs → SbR s3 a → SbR (.nt i .tanruUnit2 (.nt j .keSelbri3Tu2 cs :: r)) a
  | se {i j c k w p cs r u us a} : Word c k .SE w → (w, p) ∈ sePlaces → kids (c :: cs) .tanruUnit2 = u :: us → SbR u a →
      SbR (.nt i .tanruUnit2 (.nt j .seTu2 (c :: cs) :: r)) (.se p c.id a)
  | jai {i j cs r u us a} : kids cs .tanruUnit2 = u :: us → SbR u a → SbR (.nt i .tanruUnit2 (.nt j .jaiTu2 cs :: r)) (.jai a)
  | jaiTag {i j cs r t ts u us a} : kids cs .tag = t :: ts → kids cs .tanruUnit2 = u :: us → SbR u a →
      SbR (.nt i .tanruUnit2 (.nt j .jaiTagTu2 cs :: r)) (.jaiTag t.id u.id a)
  | nahe {i j cs r u us a} : kids cs .tanruUnit2 = u :: us → SbR u a → SbR (.nt i .tanruUnit2 (.nt j .naheTu2 cs :: r)) a
  | nus {i j k m cs ds es r} :
      SbR (.nt i .tanruUnit2 (.nt j .abstraction (.nt k .nuNaiSeq (.nt m .nuNaiSeq es :: ds) :: cs) :: r)) .mute

end Jbo.Terms.Spec
