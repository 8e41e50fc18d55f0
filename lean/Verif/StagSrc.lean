import Verif.Block
/-!
# The automaton for tenses: `stag_nfa.in`

The file as a tree of declarations.
-/

namespace Jbo.Stag
open Jbo.Dfasyn

/-- The inline block `<b:in->out>`. -/
def via (b : Ident) : Option (Ident × Ident × Ident) := some (b, n!"in", n!"out")

/-- `time_offset_seq` (`stag_nfa.in:21-24`). -/
def timeOffsetSeqB : BlockDecl := ⟨n!"time_offset_seq", [], [
  ⟨[.id n!"in"], none, [
    ⟨.toks [n!"PU"], [.toks [n!"NAI", 0], .toks [n!"ZI", 0]], .to [[.id n!"in"], [.id n!"out"]]⟩]⟩]⟩

/-- `zeha_pu_nai` (`stag_nfa.in:26-31`). -/
def zehaPuNaiB : BlockDecl := ⟨n!"zeha_pu_nai", [], [
  ⟨[.id n!"in"], none, [
    ⟨.toks [n!"ZEhA"], [.toks [n!"PU"], .toks [n!"NAI"]], .to [[.id n!"out"]]⟩,
    ⟨.toks [n!"ZEhA"], [.toks [n!"PU"]], .to [[.id n!"out"]]⟩,
    ⟨.toks [n!"ZEhA"], [], .to [[.id n!"out"]]⟩]⟩]⟩

/-- `number` (`stag_nfa.in:33-48`). -/
def numberB : BlockDecl := ⟨n!"number", [], [
  ⟨[.id n!"in"], none, [
    ⟨.toks [n!"PA"], [], .to [[.id n!"out"]]⟩]⟩,
  ⟨[.id n!"out"], none, [
    ⟨.toks [n!"PA"], [], .to [[.id n!"out"]]⟩,
    ⟨.toks [n!"BY"], [], .to [[.id n!"out"]]⟩,
    ⟨.toks [n!"BU"], [], .to [[.id n!"out"]]⟩,
    ⟨.toks [n!"LAU"], [], .to [[.id n!"out"]]⟩,
    ⟨.toks [n!"FOI"], [], .to [[.id n!"out"]]⟩,
    ⟨.toks [n!"TEI"], [], .to [[.id n!"out"]]⟩]⟩]⟩

/-- `interval_property` (`stag_nfa.in:50-55`). -/
def intervalPropertyB : BlockDecl := ⟨n!"interval_property", [], [
  ⟨[.id n!"in"], none, [
    ⟨.toks [n!"TAhE"], [.toks [n!"NAI", 0]], .to [[.id n!"out"]]⟩,
    ⟨.toks [n!"ZAhO"], [.toks [n!"NAI", 0]], .to [[.id n!"out"]]⟩,
    ⟨.inl [via n!"number"], [.toks [n!"ROI"], .toks [n!"NAI", 0]], .to [[.id n!"out"]]⟩]⟩]⟩

/-- `interval_property_seq` (`stag_nfa.in:57-60`). -/
def intervalPropertySeqB : BlockDecl := ⟨n!"interval_property_seq", [], [
  ⟨[.id n!"in"], none, [
    ⟨.inl [via n!"interval_property"], [], .to [[.id n!"in"], [.id n!"out"]]⟩]⟩]⟩

/-- `time` (`stag_nfa.in:62-68`). -/
def timeB : BlockDecl := ⟨n!"time", [], [
  ⟨[.id n!"in"], none, [
    ⟨.toks [n!"ZI", 0], [.inl [via n!"time_offset_seq", none], .inl [via n!"zeha_pu_nai", none], .inl [via n!"interval_property_seq"]], .to [[.id n!"out"]]⟩,
    ⟨.toks [n!"ZI", 0], [.inl [via n!"time_offset_seq", none], .inl [via n!"zeha_pu_nai"]], .to [[.id n!"out"]]⟩,
    ⟨.toks [n!"ZI", 0], [.inl [via n!"time_offset_seq"]], .to [[.id n!"out"]]⟩,
    ⟨.toks [n!"ZI"], [], .to [[.id n!"out"]]⟩]⟩]⟩

/-- `space_offset_seq` (`stag_nfa.in:70-73`). -/
def spaceOffsetSeqB : BlockDecl := ⟨n!"space_offset_seq", [], [
  ⟨[.id n!"in"], none, [
    ⟨.toks [n!"FAhA"], [.toks [n!"NAI", 0], .toks [n!"VA", 0]], .to [[.id n!"in"], [.id n!"out"]]⟩]⟩]⟩

/-- `vvfn` (`stag_nfa.in:75-83`). -/
def vvfnB : BlockDecl := ⟨n!"vvfn", [], [
  ⟨[.id n!"in"], none, [
    ⟨.toks [n!"VEhA"], [.toks [n!"VIhA"], .toks [n!"FAhA"], .toks [n!"NAI", 0]], .to [[.id n!"out"]]⟩,
    ⟨.toks [n!"VEhA"], [.toks [n!"VIhA"]], .to [[.id n!"out"]]⟩,
    ⟨.toks [n!"VEhA"], [.toks [n!"FAhA"], .toks [n!"NAI", 0]], .to [[.id n!"out"]]⟩,
    ⟨.toks [n!"VEhA"], [], .to [[.id n!"out"]]⟩,
    ⟨.toks [n!"VIhA"], [.toks [n!"FAhA"], .toks [n!"NAI", 0]], .to [[.id n!"out"]]⟩,
    ⟨.toks [n!"VIhA"], [], .to [[.id n!"out"]]⟩]⟩]⟩

/-- `space_int_props` (`stag_nfa.in:85-88`). -/
def spaceIntPropsB : BlockDecl := ⟨n!"space_int_props", [], [
  ⟨[.id n!"in"], none, [
    ⟨.toks [n!"FEhE"], [.inl [via n!"interval_property"]], .to [[.id n!"in"], [.id n!"out"]]⟩]⟩]⟩

/-- `space_interval` (`stag_nfa.in:90-94`). -/
def spaceIntervalB : BlockDecl := ⟨n!"space_interval", [], [
  ⟨[.id n!"in"], none, [
    ⟨.inl [via n!"vvfn", none], [.inl [via n!"space_int_props"]], .to [[.id n!"out"]]⟩,
    ⟨.inl [via n!"vvfn"], [], .to [[.id n!"out"]]⟩]⟩]⟩

/-- `mohi_space_offset` (`stag_nfa.in:96-99`). -/
def mohiSpaceOffsetB : BlockDecl := ⟨n!"mohi_space_offset", [], [
  ⟨[.id n!"in"], none, [
    ⟨.toks [n!"MOhI"], [.toks [n!"FAhA"], .toks [n!"NAI", 0], .toks [n!"VA", 0]], .to [[.id n!"out"]]⟩]⟩]⟩

/-- `space` (`stag_nfa.in:101-107`). -/
def spaceB : BlockDecl := ⟨n!"space", [], [
  ⟨[.id n!"in"], none, [
    ⟨.toks [n!"VA", 0], [.inl [via n!"space_offset_seq", none], .inl [via n!"space_interval", none], .inl [via n!"mohi_space_offset"]], .to [[.id n!"out"]]⟩,
    ⟨.toks [n!"VA", 0], [.inl [via n!"space_offset_seq", none], .inl [via n!"space_interval"]], .to [[.id n!"out"]]⟩,
    ⟨.toks [n!"VA", 0], [.inl [via n!"space_offset_seq"]], .to [[.id n!"out"]]⟩,
    ⟨.toks [n!"VA"], [], .to [[.id n!"out"]]⟩]⟩]⟩

/-- `tsst` (`stag_nfa.in:109-113`). -/
def tsstB : BlockDecl := ⟨n!"tsst", [], [
  ⟨[.id n!"in"], none, [
    ⟨.toks [n!"NAhE", 0], [.inl [via n!"time"], .inl [via n!"space", none]], .to [[.id n!"out"]]⟩,
    ⟨.toks [n!"NAhE", 0], [.inl [via n!"space"], .inl [via n!"time", none]], .to [[.id n!"out"]]⟩]⟩]⟩

/-- `simple_tense_modal` (`stag_nfa.in:115-122`). -/
def simpleTenseModalB : BlockDecl := ⟨n!"simple_tense_modal", [], [
  ⟨[.id n!"in"], none, [
    ⟨.toks [n!"NAhE", 0], [.toks [n!"SE", 0], .toks [n!"BAI"], .toks [n!"NAI", 0], .toks [n!"KI", 0]], .to [[.id n!"out"]]⟩,
    ⟨.toks [n!"NAhE", 0], [.inl [via n!"tsst", none], .toks [n!"CAhA"], .toks [n!"KI", 0]], .to [[.id n!"out"]]⟩,
    ⟨.toks [n!"NAhE", 0], [.inl [via n!"tsst"], .toks [n!"KI", 0]], .to [[.id n!"out"]]⟩,
    ⟨.toks [n!"KI"], [], .to [[.id n!"out"]]⟩,
    ⟨.toks [n!"CUhE"], [], .to [[.id n!"out"]]⟩]⟩]⟩

/-- `main` (`stag_nfa.in:124-127`). -/
def mainB : BlockDecl := ⟨n!"main", [], [
  ⟨[.id n!"in"], none, [
    ⟨.inl [via n!"simple_tense_modal"], [], .tag c!"SUCCESS"⟩]⟩]⟩

/-- The whole file `stag_nfa.in`. -/
def stagSource : Source where
  tokens := [n!"BAI", n!"BU", n!"BY", n!"CAhA", n!"CUhE", n!"FAhA", n!"FEhE", n!"FOI", n!"KI", n!"LAU", n!"MOhI", n!"NAhE", n!"NAI", n!"PA", n!"PU", n!"ROI", n!"SE", n!"TAhE", n!"TEI", n!"VA", n!"VEhA", n!"VIhA", n!"ZAhO", n!"ZEhA", n!"ZI"]
  abbrevs := []
  blocks := [timeOffsetSeqB, zehaPuNaiB, numberB, intervalPropertyB, intervalPropertySeqB, timeB, spaceOffsetSeqB, vvfnB, spaceIntPropsB, spaceIntervalB, mohiSpaceOffsetB, spaceB, tsstB, simpleTenseModalB, mainB]
  exit := ⟨[], [⟨c!"SUCCESS", .sym c!"SUCCESS", false⟩]⟩
  attr := ⟨[], []⟩

end Jbo.Stag
