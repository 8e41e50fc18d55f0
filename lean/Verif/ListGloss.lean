import Verif.CmTransThm
import Verif.MkDictThm
/-!
# From the word lists to the gloss of a lujvo

Puts together `mkdict.pl`, `dict2inc.pl`, `dict_lookup` and `translate_lujvo`.
-/

namespace Jbo.ListGloss
open Jbo Dict Embed MkDict CmTrans

/-- Characters as bytes and back (`char` in C). -/
def toBytes (w : Word) : Str := w.map (fun c => UInt8.ofNat c.toNat)
def toChars (s : Str) : Word := s.map (fun b => Char.ofNat b.toNat)

/-- `dict_lookup` (`dictaccs.c`) with the embedded table, as `cm_translate.c` calls it; the result is 0 where it
finds nothing. -/
def dict (es : List (Str × Str)) (key : Word) : Option Word :=
  match lookup es (toBytes key) with
  | .ok v => v.map toChars
  | .error _ => none

/-! ## Specification -/

/-- The meaning of a component in the lists: of a word its meaning as a cmavo or as a gismu, of a rafsi the meaning of the last
gismu that has it. -/
def meaning (gs : List Gismu) (cs : List Cmavo) (w : Word) : Option Str :=
  if w.length = 5 then ((lastCmavo (toBytes w) cs).map (·.eng)).or ((lastWith (·.word = toBytes w) gs).map (·.eng))
  else (lastWith (·.Has (toBytes w)) gs).map (·.eng)

/-- As it is shown. -/
def shown (m : Option Str) : Word := (m.map toChars).getD ['?']

/-- A component that does not begin with one of the signs of the dictionary. -/
def Plain5 (w : Word) : Prop := ∀ c, (toBytes w).head? = some c → c ≠ 0x25 ∧ c ≠ 0x40 ∧ c ≠ 0x2B

/-! ## Theorem -/

/-- **The gloss of a lujvo comes from the lists**: for every list of gismu and every list of cmavo laid out in columns, and every lujvo
whose components are no conversions, the gloss is the meanings of the components in the lists, with hyphens between them and `?` for
a component that no gismu has. -/
theorem lujvo_from_lists (gs : List Gismu) (cs : List Cmavo) (gl cl : List Str) (hg : Listed gs gl) (hc : CListed cs cl) :
    ∃ es, readTable (table (collect (Embed.lines ((mkdict gl cl).flatMap (· ++ [0x0A]))))) = some es ∧
      ∀ (ps : List Spec.Part) (last : Word), Spec.Lujvo true ps last → (∀ p ∈ ps, Spec.conversion p.rafsi = none) →
        Plain5 last → (∀ p ∈ ps, Plain5 p.rafsi) →
        translateLujvo (dict es) (Spec.wordOf ps last) =
          Spec.hyphened (ps.map (fun p => shown (meaning gs cs p.rafsi)) ++ [shown (meaning gs cs last)]) := by
  obtain ⟨es, h0, _, h2, _, h4⟩ := dictionary_built gs cs gl cl hg hc
  refine ⟨es, h0, ?_⟩
  intro ps last hl hn hp5 hq5
  have one : ∀ w : Word, Plain5 w → Spec.gloss (dict es) (Spec.keyOf w) 0 = shown (meaning gs cs w) := by
    intro w hw
    rw [Spec.gloss, if_pos rfl, Spec.keyOf, meaning, shown]
    by_cases h5 : w.length = 5
    · rw [if_pos h5, if_pos h5, dict, h4 _ hw]
    · have e : toBytes ('%' :: w) = 0x25 :: toBytes w := rfl
      rw [if_neg h5, if_neg h5, dict, e, h2]
  have := lujvo_meant_partial (dict es) ps [] last (by rw [List.append_nil]; exact hl) hn (fun p hp => nomatch hp) (Or.inr rfl)
  rw [(pieces_plain (dict es) ps hn [] last).2, List.append_nil] at this
  rw [this, Spec.meant, one last hp5]
  congr 2
  exact List.map_congr_left (fun p hp => one p.rafsi (hq5 p hp))

/-! ## Cases -/

/-- `badri` of the list; `dribadri` and `drixyz` would be glossed `sad-sad` and `sad-?`. -/
example : meaning [badri] [] "dri".toList = some (bytes "sad") ∧ meaning [badri] [] "badri".toList = some (bytes "sad") ∧
    meaning [badri] [] "xyz".toList = none ∧ shown (meaning [badri] [] "badr".toList) = "sad".toList := by decide +kernel
example : Spec.Lujvo true [⟨"dri".toList, []⟩] "badri".toList ∧ Spec.conversion "dri".toList = none := by
  refine ⟨⟨by decide, Or.inl ⟨by decide, by decide⟩, Or.inr ⟨Or.inl (by decide), ?_⟩, by decide, by decide, by decide⟩, by decide⟩
  rw [if_neg (by decide)]
example : Plain5 "badri".toList := by
  intro c hc
  have : c = 0x62 := by simpa [toBytes] using hc.symm
  rw [this]; decide

end Jbo.ListGloss
