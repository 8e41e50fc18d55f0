import Verif.LatexBlk
import Verif.OutputSpec
/-!
# What the display in blocks for LaTeX shows
-/

namespace Jbo.LatexBlk.Spec
open Jbo.Output (Br Call)
open Jbo.Flow (Text)

/-- What can be seen in a line: characters and numbered brackets. -/
inductive Sym
  | ch (c : Char)
  | opened (b : Br) (n : Nat)
  | closed (b : Br) (n : Nat)
deriving DecidableEq, Repr

/-- The Lojban, English and label line of what is printed. -/
def lojShown : Item → List Sym
  | .block l _ _ => l.map .ch
  | .opened b n => [.opened b n]
  | .closed b n => [.closed b n]
  | _ => []
def engShown : Item → List Sym
  | .block _ e _ => e.map .ch
  | .opened b n => [.opened b n]
  | .closed b n => [.closed b n]
  | _ => []
def tagShown : Item → Text
  | .block _ _ t => t
  | _ => []

/-- A piece of the text: a word has a blank before it. -/
def wrote : Output.Spec.Piece → List Sym
  | .opened b n => [.opened b n]
  | .closed b n => [.closed b n]
  | .word s => (' ' :: s.toList).map .ch

/-- What a call adds to the English line; nothing if the gloss is too long. -/
def english : Call → List Sym
  | .opened b n => if b = .none then [] else [.opened b n]
  | .closed b n => if b = .none then [] else [.closed b n]
  | .translation t => ((engText t).toOption.getD []).map .ch
  | _ => []

/-- The labels: groups in brackets, labels separated by commas. -/
def labels : Bool → List Call → Text
  | _, [] => []
  | _, .startTags :: cs => '[' :: labels true cs
  | f, .endTags :: cs => [':', ']'] ++ labels f cs
  | f, .startTag :: cs => (if f then [] else [',', ' ']) ++ labels false cs
  | f, .tagText a b c e :: cs => (tagText a b c e).toOption.getD [] ++ labels f cs
  | f, .tagPart t :: cs => t.toList ++ labels f cs
  | f, _ :: cs => labels f cs

/-- Without ends of line. -/
def joined (t : Text) : Text := t.filter (· ≠ '\n')

end Jbo.LatexBlk.Spec
