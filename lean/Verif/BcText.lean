import Verif.DfaSrc
import Verif.BcSrc
/-!
# The text of `bctables.in`
-/

namespace Jbo.Bc
open Jbo.Dfasyn

/-- Lines 1 to 75 of `bctables.in`. -/
def text0 : List (List Char) := [
  c!"Tokens A E I O U Y D L OCONS APOS COMMA",
  c!"# OCONS = consonant other than D or L",
  c!"",
  c!"Prefix bad_cmene",
  c!"",
  c!"Abbrev VOWEL = A|E|I|O|U",
  c!"Abbrev CONS  = D|L|OCONS",
  c!"Abbrev ANY   = VOWEL|Y|CONS|APOS|COMMA",
  c!"",
  c!"Block LA_DOI",
  c!"# Detect LA/LAI/DOI",
  c!"    State in",
  c!"        L -> l",
  c!"        D -> d",
  c!"",
  c!"    State l (ATTR_SEEN_LD)",
  c!"        A ;     APOS|COMMA|CONS -> blocked",
  c!"        A ; I ; APOS|COMMA|CONS -> blocked",
  c!"",
  c!"    State d (ATTR_SEEN_LD)",
  c!"        O ; I ; APOS|COMMA|CONS -> blocked",
  c!"",
  c!"    State blocked",
  c!"",
  c!"EndBlock",
  c!"",
  c!"Block MAIN",
  c!"",
  c!"    split : LA_DOI",
  c!"    nosplit : LA_DOI",
  c!"",
  c!"    State split.blocked   = TAG_SPLIT",
  c!"    State nosplit.blocked = TAG_NOSPLIT",
  c!"",
  c!"    State v",
  c!"        VOWEL|Y -> v",
  c!"        APOS|COMMA -> a",
  c!"        CONS -> c",
  c!"        -> split.in",
  c!"",
  c!"    State a",
  c!"        VOWEL|Y -> v",
  c!"",
  c!"    State c",
  c!"        CONS -> c",
  c!"        COMMA ; CONS -> c",
  c!"        Y -> y",
  c!"        VOWEL -> v",
  c!"        = TAG_OK",
  c!"",
  c!"    State y",
  c!"        APOS -> a",
  c!"        COMMA ; VOWEL|Y -> v",
  c!"        CONS -> c",
  c!"        -> nosplit.in",
  c!"",
  c!"    State in",
  c!"        CONS -> c",
  c!"        Y -> y",
  c!"        VOWEL -> v",
  c!"        -> split.in",
  c!"",
  c!"EndBlock",
  c!"",
  c!"EarlyResult TAG_SPLIT -> BC_CMENE_BAD_SPLIT",
  c!"EarlyResult TAG_NOSPLIT -> BC_CMENE_BAD_NOSPLIT",
  c!"Result TAG_OK & ~(TAG_SPLIT | TAG_NOSPLIT) -> BC_CMENE_OK",
  c!"DefResult BC_NOT_COMPLETE",
  c!"",
  c!"Attr Result ATTR_SEEN_LD",
  c!"Attr DefResult ATTR_NONE",
  c!"",
  c!"Type \"enum result\"",
  c!"Attr Type \"enum attribute\"",
  c!""]

/-- The whole of `bctables.in`. -/
def text : List Char := (text0).flatMap (· ++ ['\n'])

/-- The declarations in `BcSrc` are those of the file. -/
theorem text_source : DfaSrc.ofText text = some bcSource := by decide +kernel

end Jbo.Bc
