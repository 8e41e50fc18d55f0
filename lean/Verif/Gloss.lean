import Verif.Trans
import Verif.Lex2
import Verif.Tenses
import Verif.Output
/-!
# Model of `output.c`: the choice of the glosses

`get_lojban_word_and_translation` and the functions under it write into buffers of the caller: `loj` and `eng` have 1024 bytes (`output.c:1280`).
A text longer than its buffer is the outcome `overflow`.
-/

namespace Jbo.Gloss
open Jbo.Terms (Node)
open Jbo.Trans (Adv)

abbrev M := Except Trans.Crash

/-- `strcpy` or `strcat`: the buffer of `n` bytes holds this text and a zero after it. -/
def put (n : Nat) (t : Word) : M Word := if t.length < n then .ok t else .error .overflow

/-- The dictionary: `dict_lookup`, which `translate` copies (`translate.c:42-57`; that copy goes to a buffer of the ring, whose size is not modelled
here), `adv_translate` and `translate_unknown`. -/
structure Dict where
  look : Word → Option Word
  adv : Adv
  unknown : Word → Int → Trans.Ctx → M (Option Word)

/-- The dictionary with the functions of `translate.c` as modelled in `Trans`. -/
def Dict.of (look : Word → Option Word) (morf : Word → Trans.Morf) (fuel : Nat) : Dict :=
  ⟨look, Trans.adv look morf fuel, Trans.transUnknown morf (Trans.adv look morf fuel)⟩

/-- The terminal nodes (`nodes.h:80-160`).  A cmavo has its selma'o, its text and `prop_elidable`; a compound made with `zei` has `sep_with_zei`,
`sep_with_plus`, and its parts as `build_string_from_node` writes them. -/
inductive Item
  | cmavo (s : Terms.Sel) (w : Word) (elided : Bool)
  | zoi (form term text : Word)
  | zo (text : Word)
  | zei (withZei withPlus : Word) (parts : List Word)
  | lohu (text : Word)
  | bu (w : Word)
  | brivla (w : Word)
  | cmene (w : Word)
deriving DecidableEq, Repr

/-- The properties of a node that are read: `prop_bai_conversion`, `prop_tense_ctx`, `prop_dont_gloss`, the number of the antecedent
(`prop_rel_clause_link`, `prop_antecedent`), `prop_neg_indicator`, `prop_cai_indicator`, `prop_conversion`, and `prop_glosstype` with `in_selbri`
and `is_tertau`.  `TSC_OTHER`, which nothing sets, is left out. -/
structure Props where
  bai : Option Nat := none
  tense : Option Tenses.Ctx := none
  quiet : Bool := false
  keha : Option Nat := none
  nai : Bool := false
  cai : Option Lex2.Cai := none
  conv : Option Nat := none
  role : Option (Bool × Bool) := none

/-- The decimal digits of a number: `"%d"`. -/
def num (n : Nat) : Word := (toString n).toList

/-- `prefixes[baiconv->conv - 1]` (`output.c:197`). -/
def prefixes (c : Nat) : M Word :=
  match c with
  | 1 => .ok []
  | 2 => .ok "se".toList
  | 3 => .ok "te".toList
  | 4 => .ok "ve".toList
  | 5 => .ok "xe".toList
  | _ => .error .outOfBounds

/-- The prefix of a word in BAI (`output.c:196-199`). -/
def baiPrefix (p : Props) : M Word :=
  match p.bai with
  | none => .ok []
  | some c => prefixes c

/-- `translate_bai` (`output.c:185-235`). -/
def translateBai (d : Dict) (p : Props) (w : Word) : M Word := do
  let pre ← baiPrefix p
  let key ← put 1024 (pre ++ w ++ (if p.tense = some .jaitag then "@JAI".toList else []))
  match d.look key with
  | some t => put 1024 t
  | none => match d.look w with
    | some t => put 1024 (t ++ " (CONV?)".toList)
    | none => .ok ['?']

/-- `translate_other_cmavo` (`output.c:345-355`). -/
def translateOther (d : Dict) (w : Word) : M Word :=
  match d.look w with
  | some t => put 1024 t
  | none => .ok []

/-- `translate_se` and `translate_goi` (`output.c:237-267`), which are the same. -/
def translateSe (d : Dict) (p : Props) (w : Word) : M Word :=
  if p.quiet then .ok [] else translateOther d w

/-- `translate_koha` (`output.c:269-295`). -/
def translateKoha (d : Dict) (p : Props) (w : Word) : M Word := do
  let e ← translateOther d w
  if w = "ke'a".toList then
    match p.keha with
    | some n => put 1024 (e ++ " #".toList ++ num n)
    | none => .ok e
  else .ok e

/-- The words of the two `switch` statements of `translate_indicator` (`output.c:371-403`, `420-451`). -/
def caiText : Lex2.Cai → Word
  | .CAI => "cai".toList
  | .SAI => "sai".toList
  | .RUhE => "ru'e".toList
  | .CUhI => "cu'i".toList
  | .RUhENAI => "ru'enai".toList
  | .SAINAI => "sainai".toList
  | .CAINAI => "cainai".toList
  | .PEI => "pei".toList
  | .PEINAI => "peinai".toList

/-- The start of `buffer` (`output.c:370-403`): `strcpy` from a null pointer if the word is not in the dictionary. -/
def caiGloss (d : Dict) (p : Props) : M Word :=
  match p.cai with
  | none => .ok []
  | some c => match d.look (caiText c) with
    | none => .error .nullDeref
    | some t => put 65536 (t ++ [' '])

/-- What is written after the word (`output.c:420-451`). -/
def caiTail (p : Props) : Word :=
  match p.cai with
  | none => []
  | some c => ' ' :: caiText c

/-- The gloss in braces (`output.c:410-418`). -/
def indicatorGloss (d : Dict) (pre loj : Word) : M Word :=
  match d.look loj with
  | some t => do
    let b ← put 65536 (pre ++ t)
    put 1024 ("{".toList ++ b ++ "..}".toList)
  | none => .ok []

/-- `translate_indicator` (`output.c:357-452`): `loj` and `eng`. -/
def translateIndicator (d : Dict) (p : Props) (w : Word) : M (Word × Word) := do
  let pre ← caiGloss d p
  let loj ← put 1024 (w ++ (if p.nai then "nai".toList else []))
  let eng ← indicatorGloss d pre loj
  let loj ← put 1024 (loj ++ caiTail p)
  return (loj, eng)

/-- The `switch` of `translate_tense_in_context` (`output.c:473-494`) and of `output_clustered` (`output.c:1218-1241`). -/
def ctxSuffix : Tenses.Ctx → Word
  | .term => "@TERM".toList
  | .noun => "@NOUN".toList
  | .selbri => "@SELBRI".toList
  | .link => "@LINK".toList
  | .connect => "@CONNECT".toList
  | .jaitag => "@JAI".toList

/-- `translate_tense_in_context` (`output.c:454-502`). -/
def inContext (d : Dict) (w : Word) (c : Tenses.Ctx) : M (Option Word) := do
  let key ← put 1024 (w ++ ctxSuffix c)
  match d.look key with
  | some t => return some t
  | none => return d.look w

/-- `translate_tense` (`output.c:504-525`). -/
def translateTense (d : Dict) (p : Props) (w : Word) : M Word :=
  match p.tense with
  | some c => do
    match ← inContext d w c with
    | some t => put 1024 t
    | none => translateOther d w
  | none => translateOther d w

/-- The parts of `translate(…)` with `"?"` (`output.c:556-570`). -/
def orAsk (d : Dict) (w : Word) : Word := (d.look w).getD ['?']

/-- `translate_time_offset` (`output.c:527-578`): the words in PU, NAI and ZI.  Without a context the text found is not copied to `eng`. -/
def timeOffset (d : Dict) (p : Props) (pu : Word) (nai zi : Option Word) : M (Word × Word) := do
  let loj ← put 1024 (pu ++ nai.getD [] ++ zi.getD [])
  match p.tense with
  | none => return (loj, [])
  | some c => do
    match ← inContext d loj c with
    | some t => return (loj, ← put 1024 t)
    | none => do
      let e ← put 1024 (orAsk d pu ++ (match nai with | some w => ' ' :: orAsk d w | none => []) ++
        (match zi with | some w => ' ' :: orAsk d w | none => []))
      return (loj, e)

/-- The suffix of `translate_jai` (`output.c:587-605`). -/
def jaiSuffix : Option (Bool × Bool) → Word
  | some (true, true) => "_v".toList
  | some (false, true) => "_n".toList
  | some (_, false) => "_a".toList
  | none => "_a".toList

/-- `translate_jai` (`output.c:580-613`). -/
def translateJai (d : Dict) (p : Props) (w : Word) : M Word := do
  let key ← put 1024 (w ++ jaiSuffix p.role)
  match d.look key with
  | some t => put 1024 t
  | none => translateOther d w

/-- The context of `translate_convertible` (`output.c:630-645`). -/
def roleCtx : Bool × Bool → Trans.Ctx
  | (true, true) => .verb
  | (true, false) => .qual
  | (false, true) => .noun
  | (false, false) => .qual

/-- `translate_convertible` (`output.c:615-674`).  The buffer of 65536 bytes for the key is not modelled. -/
def convertible (d : Dict) (p : Props) (w : Word) : M (Option Word) :=
  match p.role with
  | some r => do return some (← d.adv w (p.conv.getD 1) (roleCtx r))
  | none => match d.look (w ++ num (p.conv.getD 1)) with
    | some t => .ok (some t)
    | none => match d.look w with
      | some t => .ok (some (t ++ (if p.conv.isSome then " (CONV?)".toList else [])))
      | none => d.unknown w (p.conv.getD 1) .noun

/-- `translate_brivla` and `translate_abstraction` (`output.c:676-703`). -/
def translateBrivla (d : Dict) (p : Props) (w : Word) : M Word := do
  match ← convertible d p w with
  | some t => put 1024 t
  | none => .ok []

/-- `attempt_translation` (`output.c:705-714`). -/
def attempt (d : Dict) (w : Word) : M Word :=
  match d.look w with
  | some t => put 1024 t
  | none => .ok ['?']

/-- The functions that `get_lojban_word_and_translation` calls for a cmavo (`output.c:728-767`): `loj` and `eng`, where `loj` is what stands there
before. -/
def cmavoGloss (d : Dict) (p : Props) (s : Terms.Sel) (w loj : Word) : M (Word × Word) :=
  match s with
  | .BAI => do return (loj, ← translateBai d p w)
  | .SE | .GOI => do return (loj, ← translateSe d p w)
  | .KOhA => do return (loj, ← translateKoha d p w)
  | .NU => do return (loj, ← translateBrivla d p w)
  | .PU | .ZAhO | .VA | .FAhA => do return (loj, ← translateTense d p w)
  | .UI | .CAI => translateIndicator d p w
  | .JAI => do return (loj, ← translateJai d p w)
  | _ => do return (loj, ← translateOther d w)

/-- `toupper` in the C locale. -/
def upper (w : Word) : Word := w.map Char.toUpper

/-- The words of a compound made with `zei`, one at a time (`output.c:803-812`). -/
def zeiParts (d : Dict) : List Word → Word
  | [] => []
  | [w] => orAsk d w
  | w :: ws => orAsk d w ++ " type-of ".toList ++ zeiParts d ws

/-- The gloss of a compound made with `zei` (`output.c:797-813`). -/
def zeiGloss (d : Dict) (p : Props) (plus : Word) (parts : List Word) : M Word := do
  match ← convertible d p plus with
  | some t => if t.head? = some '?' then put 1024 (zeiParts d parts) else put 1024 t
  | none => put 1024 (zeiParts d parts)

/-- `get_lojban_word_and_translation` (`output.c:716-842`): `loj` and `eng`. -/
def wordGloss (d : Dict) (p : Props) : Item → M (Word × Word)
  | .cmavo s w el => do
    let loj ← put 1024 (if el then upper w else w)
    cmavoGloss d p s w loj
  | .zoi form term text => do
    let loj ← put 1024 (form ++ " ".toList ++ term ++ " ".toList ++ text ++ " ".toList ++ term)
    return (loj, ← attempt d text)
  | .zo text => do
    let loj ← put 1024 ("zo ".toList ++ text)
    let b ← attempt d text
    return (loj, ← put 1024 ("\"".toList ++ b ++ "\"".toList))
  | .zei wz plus parts => do
    let loj ← put 1024 wz
    return (loj, ← zeiGloss d p plus parts)
  | .lohu text => do
    let loj ← put 1024 ("lo'u ".toList ++ text ++ " le'u".toList)
    return (loj, ← attempt d text)
  | .bu w => do
    let loj ← put 1024 (w ++ ".bu".toList)
    return (loj, ← attempt d loj)
  | .brivla w => do
    let loj ← put 1024 w
    return (loj, ← translateBrivla d p w)
  | .cmene w => do
    let loj ← put 1024 w
    return (loj, "[NAME]".toList)

/-- `strchr("aeiou", loj[0])` (`output.c:1448`): true also of the empty text, whose first byte is the zero. -/
def dotted (loj : Word) : Bool :=
  match loj with
  | [] => true
  | c :: _ => c ∈ "aeiou".toList

/-- The text of a word as handed to the driver (`output.c:1445-1454`); a compound made with `zei` is shown as it is (`output.c:1400-1418`). -/
def shown (x : Item) (loj : Word) : M Word :=
  match x with
  | .zei .. => .ok loj
  | .cmene _ => put 1024 ((if dotted loj then ".".toList else []) ++ loj ++ ".".toList)
  | _ => put 1024 ((if dotted loj then ".".toList else []) ++ loj)

/-! ## Clusters -/

/-- The selma'o that `get_cmavo_text_inside_node` leaves out (`output.c:314-320`). -/
def skipped : Terms.Sel → Bool
  | .UI | .BAhE | .DAhO | .Y | .FUhO => true
  | _ => false

mutual
/-- `get_cmavo_text_inside_node_internal` (`output.c:297-335`); `bu` gives the words of type `N_BU`. -/
def cmavoText (bu : Nat → Option Word) : Node → Word
  | .nt _ _ cs => cmavoTexts bu cs
  | .cmavo _ s w => if skipped s then [] else w.toList
  | .leaf i => (bu i).getD []
  | _ => []
def cmavoTexts (bu : Nat → Option Word) : List Node → Word
  | [] => []
  | c :: cs => cmavoText bu c ++ cmavoTexts bu cs
end

/-- `get_cmavo_text_inside_node` (`output.c:337-343`): the static buffer. -/
def clusterText (bu : Nat → Option Word) (x : Node) : M Word := put 1024 (cmavoText bu x)

/-- The lookup of `output_clustered` (`output.c:1187-1256`); its own buffers have 65536 bytes. -/
def cluster (d : Dict) (p : Props) (bu : Nat → Option Word) (x : Node) : M (Option Word) := do
  let w ← clusterText bu x
  let t := match d.look (w ++ (match p.tense with | some c => ctxSuffix c | none => [])) with
    | some t => some t
    | none => d.look w
  match t with
  | some t => do return some (← put 65536 t)
  | none => return none

/-! ## Connectives -/

/-- The key of a truth pattern (`output.c:1094-1112`); the buffer has 64 bytes. -/
def patternKey (p : Connect.Pos) (pattern : Word) : M (Option Word) :=
  match p with
  | .after => do return some (← put 64 (pattern ++ "@AFTER".toList))
  | .ge => do return some (← put 64 (pattern ++ "@GE".toList))
  | .gi => do return some (← put 64 (pattern ++ "@GI".toList))
  | _ => .ok none

/-! ## Labels -/

/-- `sprintf(transbuf, trans, n)` (`output.c:906`, `923`): the text of the dictionary is the format.  One `%d` takes the argument; a second one, or any
other directive, has no argument to take. -/
def format (n : Nat) : Bool → Word → M Word
  | _, [] => .ok []
  | used, '%' :: '%' :: r => do return '%' :: (← format n used r)
  | false, '%' :: 'd' :: r => do return num n ++ (← format n true r)
  | _, '%' :: _ => .error .outOfBounds
  | used, c :: r => do return c :: (← format n used r)

/-- What a label refers to, with the words and numbers that are shown (`nodes.h:181-247`). -/
inductive Head
  | brivla (w : Word)
  | goha (w : Word)
  | me (sumti : Nat)
  | nuha (op : Nat)
  | numberMoi (n : Nat) (moi : Word)
  | abstraction (nu : Word)
  | zei (n : Nat) (plus : Word)
deriving DecidableEq, Repr

/-- The three texts of `write_tag_text` (`output.c:861-970`), without `TTT_JAITAG`. -/
def labelText (d : Dict) (pos : Nat) : Head → M (Word × Word × Word)
  | .brivla w | .abstraction w => do
    let t ← d.adv w pos .tag
    return (w, ← put 16 (num pos), t)
  | .me s => do
    let t ← d.adv "me".toList pos .tag
    let b ← format s false t
    let b ← put 1024 b
    return ("me".toList, ← put 16 (num pos ++ "..".toList), b)
  | .numberMoi n m => do
    let t ← d.adv m pos .tag
    let b ← format n false t
    let b ← put 1024 b
    return (← put 1024 ("#".toList ++ num n ++ "-".toList ++ m ++ num pos), [], b)
  | .goha w => do return (← put 32 (w ++ num pos), [], [])
  | .nuha n => do return (← put 64 ("#".toList ++ num n ++ "-".toList ++ num pos), [], [])
  | .zei n plus => do
    let l ← put 32 ("#".toList ++ num n ++ "-".toList ++ num pos)
    let t ← d.adv plus pos .tag
    return (l, [], t)

end Jbo.Gloss
