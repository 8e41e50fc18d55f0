import Verif.Block
/-!
# The automaton for bad names: `bctables.in`

The file as a tree of declarations (`tr` is a line with `->`, `ex` a line with `=`).
-/

namespace Jbo.Bc
open Jbo.Dfasyn

/-- `LA_DOI` (`bctables.in:10-25`). -/
def laDoiB : BlockDecl := ⟨n!"LA_DOI", [], [
  st [n!"in"] [
    tr [[n!"L"]] [[n!"l"]],
    tr [[n!"D"]] [[n!"d"]]],
  sta [n!"l"] c!"ATTR_SEEN_LD" [
    tr [[n!"A"], [n!"APOS", n!"COMMA", n!"CONS"]] [[n!"blocked"]],
    tr [[n!"A"], [n!"I"], [n!"APOS", n!"COMMA", n!"CONS"]] [[n!"blocked"]]],
  sta [n!"d"] c!"ATTR_SEEN_LD" [
    tr [[n!"O"], [n!"I"], [n!"APOS", n!"COMMA", n!"CONS"]] [[n!"blocked"]]],
  st [n!"blocked"] []]⟩

/-- `MAIN` (`bctables.in:27-63`). -/
def mainB : BlockDecl := ⟨n!"MAIN", [(n!"split", n!"LA_DOI"), (n!"nosplit", n!"LA_DOI")], [
  st [n!"split", n!"blocked"] [ex [[0]] c!"TAG_SPLIT"],
  st [n!"nosplit", n!"blocked"] [ex [[0]] c!"TAG_NOSPLIT"],
  st [n!"v"] [
    tr [[n!"VOWEL", n!"Y"]] [[n!"v"]],
    tr [[n!"APOS", n!"COMMA"]] [[n!"a"]],
    tr [[n!"CONS"]] [[n!"c"]],
    tr [[0]] [[n!"split", n!"in"]]],
  st [n!"a"] [tr [[n!"VOWEL", n!"Y"]] [[n!"v"]]],
  st [n!"c"] [
    tr [[n!"CONS"]] [[n!"c"]],
    tr [[n!"COMMA"], [n!"CONS"]] [[n!"c"]],
    tr [[n!"Y"]] [[n!"y"]],
    tr [[n!"VOWEL"]] [[n!"v"]],
    ex [[0]] c!"TAG_OK"],
  st [n!"y"] [
    tr [[n!"APOS"]] [[n!"a"]],
    tr [[n!"COMMA"], [n!"VOWEL", n!"Y"]] [[n!"v"]],
    tr [[n!"CONS"]] [[n!"c"]],
    tr [[0]] [[n!"nosplit", n!"in"]]],
  st [n!"in"] [
    tr [[n!"CONS"]] [[n!"c"]],
    tr [[n!"Y"]] [[n!"y"]],
    tr [[n!"VOWEL"]] [[n!"v"]],
    tr [[0]] [[n!"split", n!"in"]]]]⟩

/-- Results (`bctables.in:65-68`). -/
def bcExit : Evaluator where
  defs := []
  results := [⟨c!"BC_CMENE_BAD_SPLIT", .sym c!"TAG_SPLIT", true⟩,
    ⟨c!"BC_CMENE_BAD_NOSPLIT", .sym c!"TAG_NOSPLIT", true⟩,
    ⟨c!"BC_CMENE_OK", .and (.sym c!"TAG_OK") (.not (.or (.sym c!"TAG_SPLIT") (.sym c!"TAG_NOSPLIT"))), false⟩]

/-- Attributes (`bctables.in:70-71`). -/
def bcAttr : Evaluator where
  defs := []
  results := [⟨c!"ATTR_SEEN_LD", .sym c!"ATTR_SEEN_LD", false⟩]

/-- The whole file `bctables.in`. -/
def bcSource : Source where
  tokens := [n!"A", n!"E", n!"I", n!"O", n!"U", n!"Y", n!"D", n!"L", n!"OCONS", n!"APOS", n!"COMMA"]
  abbrevs := [(n!"VOWEL", [n!"A", n!"E", n!"I", n!"O", n!"U"]),
    (n!"CONS", [n!"D", n!"L", n!"OCONS"]),
    (n!"ANY", [n!"VOWEL", n!"Y", n!"CONS", n!"APOS", n!"COMMA"])]
  blocks := [laDoiB, mainB]
  exit := bcExit
  attr := bcAttr

end Jbo.Bc
