import Verif.StagPd
import Verif.StagCert
/-!
# The automaton for tenses against the description of tenses

The data of the check, computed outside, and the check.
-/

namespace Jbo.Stag
open Jbo.Categ Jbo.CategSpec Jbo.Dfasyn
set_option maxRecDepth 100000

/-- The alternatives (from number 0). -/
def atoms0 : List RE := [
  tenseRE,
  (.seq (.opt (.tok .NAI)) (.opt (.tok .KI))),
  (.opt (.tok .KI)),
  .eps,
  (.seq (.seq (.seq (.seq (.seq (.opt (.tok .NAI)) (.opt (.tok .VA))) (.star (.seq (.tok .FAhA) (.seq (.opt (.tok .NAI)) (.opt (.tok .VA)))))) (.seq (.opt spaceInterval) mohiSpaceOffset)) (.opt timeRE)) (.seq (.tok .CAhA) (.opt (.tok .KI)))),
  (.seq (.seq (.seq (.seq (.seq (.opt (.tok .NAI)) (.opt (.tok .VA))) (.star (.seq (.tok .FAhA) (.seq (.opt (.tok .NAI)) (.opt (.tok .VA)))))) spaceInterval) (.opt timeRE)) (.seq (.tok .CAhA) (.opt (.tok .KI)))),
  (.seq (.seq (.seq (.seq (.opt (.tok .NAI)) (.opt (.tok .VA))) (.star (.seq (.tok .FAhA) (.seq (.opt (.tok .NAI)) (.opt (.tok .VA)))))) (.opt timeRE)) (.seq (.tok .CAhA) (.opt (.tok .KI)))),
  (.seq (.seq (.seq (.seq (.seq (.opt (.tok .NAI)) (.opt (.tok .VA))) (.star (.seq (.tok .FAhA) (.seq (.opt (.tok .NAI)) (.opt (.tok .VA)))))) (.seq (.opt spaceInterval) mohiSpaceOffset)) (.opt timeRE)) (.opt (.tok .KI))),
  (.seq (.seq (.seq (.seq (.seq (.opt (.tok .NAI)) (.opt (.tok .VA))) (.star (.seq (.tok .FAhA) (.seq (.opt (.tok .NAI)) (.opt (.tok .VA)))))) spaceInterval) (.opt timeRE)) (.opt (.tok .KI))),
  (.seq (.seq (.seq (.seq (.opt (.tok .NAI)) (.opt (.tok .VA))) (.star (.seq (.tok .FAhA) (.seq (.opt (.tok .NAI)) (.opt (.tok .VA)))))) (.opt timeRE)) (.opt (.tok .KI))),
  (.seq (.seq (.seq (.seq intervalProperty (.star (.seq (.tok .FEhE) intervalProperty))) mohiSpaceOffset) (.opt timeRE)) (.seq (.tok .CAhA) (.opt (.tok .KI)))),
  (.seq (.seq (.seq intervalProperty (.star (.seq (.tok .FEhE) intervalProperty))) (.opt timeRE)) (.seq (.tok .CAhA) (.opt (.tok .KI)))),
  (.seq (.seq (.seq (.seq intervalProperty (.star (.seq (.tok .FEhE) intervalProperty))) mohiSpaceOffset) (.opt timeRE)) (.opt (.tok .KI))),
  (.seq (.seq (.seq intervalProperty (.star (.seq (.tok .FEhE) intervalProperty))) (.opt timeRE)) (.opt (.tok .KI))),
  (.seq (.seq (.seq (.tok .FAhA) (.seq (.opt (.tok .NAI)) (.opt (.tok .VA)))) (.opt timeRE)) (.seq (.tok .CAhA) (.opt (.tok .KI)))),
  (.seq (.seq (.seq (.tok .FAhA) (.seq (.opt (.tok .NAI)) (.opt (.tok .VA)))) (.opt timeRE)) (.opt (.tok .KI))),
  (.seq (.opt (.tok .SE)) (.seq (.tok .BAI) (.seq (.opt (.tok .NAI)) (.opt (.tok .KI))))),
  (.seq (.opt tsst) (.seq (.tok .CAhA) (.opt (.tok .KI)))),
  (.seq (.seq timeRE (.opt spaceRE)) (.seq (.tok .CAhA) (.opt (.tok .KI)))),
  (.seq (.seq spaceRE (.opt timeRE)) (.seq (.tok .CAhA) (.opt (.tok .KI)))),
  (.seq tsst (.opt (.tok .KI))),
  (.seq (.seq timeRE (.opt spaceRE)) (.opt (.tok .KI))),
  (.seq (.seq spaceRE (.opt timeRE)) (.opt (.tok .KI))),
  (.seq (.seq (.seq (.seq (.star (.alt (.alt (.alt (.alt (.alt (.tok .PA) (.tok .BY)) (.tok .BU)) (.tok .LAU)) (.tok .FOI)) (.tok .TEI))) (.seq (.tok .ROI) (.opt (.tok .NAI)))) (.star intervalProperty)) (.opt spaceRE)) (.seq (.tok .CAhA) (.opt (.tok .KI)))),
  (.seq (.seq (.seq (.seq (.star (.alt (.alt (.alt (.alt (.alt (.tok .PA) (.tok .BY)) (.tok .BU)) (.tok .LAU)) (.tok .FOI)) (.tok .TEI))) (.seq (.tok .ROI) (.opt (.tok .NAI)))) (.star intervalProperty)) (.opt spaceRE)) (.opt (.tok .KI))),
  (.seq (.seq (.seq (.seq (.seq (.opt (.tok .NAI)) (.opt (.tok .ZI))) (.star (.seq (.tok .PU) (.seq (.opt (.tok .NAI)) (.opt (.tok .ZI)))))) (.seq (.opt zehaPuNai) intervalPropertySeq)) (.opt spaceRE)) (.seq (.tok .CAhA) (.opt (.tok .KI)))),
  (.seq (.seq (.seq (.seq (.seq (.opt (.tok .NAI)) (.opt (.tok .ZI))) (.star (.seq (.tok .PU) (.seq (.opt (.tok .NAI)) (.opt (.tok .ZI)))))) zehaPuNai) (.opt spaceRE)) (.seq (.tok .CAhA) (.opt (.tok .KI)))),
  (.seq (.seq (.seq (.seq (.opt (.tok .NAI)) (.opt (.tok .ZI))) (.star (.seq (.tok .PU) (.seq (.opt (.tok .NAI)) (.opt (.tok .ZI)))))) (.opt spaceRE)) (.seq (.tok .CAhA) (.opt (.tok .KI)))),
  (.seq (.seq (.seq (.seq (.seq (.opt (.tok .NAI)) (.opt (.tok .ZI))) (.star (.seq (.tok .PU) (.seq (.opt (.tok .NAI)) (.opt (.tok .ZI)))))) (.seq (.opt zehaPuNai) intervalPropertySeq)) (.opt spaceRE)) (.opt (.tok .KI))),
  (.seq (.seq (.seq (.seq (.seq (.opt (.tok .NAI)) (.opt (.tok .ZI))) (.star (.seq (.tok .PU) (.seq (.opt (.tok .NAI)) (.opt (.tok .ZI)))))) zehaPuNai) (.opt spaceRE)) (.opt (.tok .KI))),
  (.seq (.seq (.seq (.seq (.opt (.tok .NAI)) (.opt (.tok .ZI))) (.star (.seq (.tok .PU) (.seq (.opt (.tok .NAI)) (.opt (.tok .ZI)))))) (.opt spaceRE)) (.opt (.tok .KI))),
  (.seq (.tok .BAI) (.seq (.opt (.tok .NAI)) (.opt (.tok .KI)))),
  (.seq (.seq (.seq (.opt (.tok .NAI)) (.star intervalProperty)) (.opt spaceRE)) (.seq (.tok .CAhA) (.opt (.tok .KI)))),
  (.seq (.seq (.seq (.opt (.tok .NAI)) (.star intervalProperty)) (.opt spaceRE)) (.opt (.tok .KI))),
  (.seq (.seq (.seq (.opt spaceOffset) (.seq (.opt spaceInterval) mohiSpaceOffset)) (.opt timeRE)) (.seq (.tok .CAhA) (.opt (.tok .KI)))),
  (.seq (.seq (.seq (.opt spaceOffset) spaceInterval) (.opt timeRE)) (.seq (.tok .CAhA) (.opt (.tok .KI)))),
  (.seq (.seq spaceOffset (.opt timeRE)) (.seq (.tok .CAhA) (.opt (.tok .KI)))),
  (.seq (.opt timeRE) (.seq (.tok .CAhA) (.opt (.tok .KI)))),
  (.seq (.seq (.seq (.opt spaceOffset) (.seq (.opt spaceInterval) mohiSpaceOffset)) (.opt timeRE)) (.opt (.tok .KI))),
  (.seq (.seq (.seq (.opt spaceOffset) spaceInterval) (.opt timeRE)) (.opt (.tok .KI)))]

/-- The alternatives (from number 40). -/
def atoms1 : List RE := [
  (.seq (.seq spaceOffset (.opt timeRE)) (.opt (.tok .KI))),
  (.seq (.opt timeRE) (.opt (.tok .KI))),
  (.seq (.seq (.seq (.seq (.seq (.tok .VIhA) (.seq (.tok .FAhA) (.opt (.tok .NAI)))) spaceIntProps) mohiSpaceOffset) (.opt timeRE)) (.seq (.tok .CAhA) (.opt (.tok .KI)))),
  (.seq (.seq (.seq (.seq (.tok .VIhA) spaceIntProps) mohiSpaceOffset) (.opt timeRE)) (.seq (.tok .CAhA) (.opt (.tok .KI)))),
  (.seq (.seq (.seq (.seq (.seq (.tok .FAhA) (.opt (.tok .NAI))) spaceIntProps) mohiSpaceOffset) (.opt timeRE)) (.seq (.tok .CAhA) (.opt (.tok .KI)))),
  (.seq (.seq (.seq spaceIntProps mohiSpaceOffset) (.opt timeRE)) (.seq (.tok .CAhA) (.opt (.tok .KI)))),
  (.seq (.seq (.seq (.seq (.tok .VIhA) (.seq (.tok .FAhA) (.opt (.tok .NAI)))) mohiSpaceOffset) (.opt timeRE)) (.seq (.tok .CAhA) (.opt (.tok .KI)))),
  (.seq (.seq (.seq (.tok .VIhA) mohiSpaceOffset) (.opt timeRE)) (.seq (.tok .CAhA) (.opt (.tok .KI)))),
  (.seq (.seq (.seq (.seq (.tok .FAhA) (.opt (.tok .NAI))) mohiSpaceOffset) (.opt timeRE)) (.seq (.tok .CAhA) (.opt (.tok .KI)))),
  (.seq (.seq mohiSpaceOffset (.opt timeRE)) (.seq (.tok .CAhA) (.opt (.tok .KI)))),
  (.seq (.seq (.seq (.seq (.tok .VIhA) (.seq (.tok .FAhA) (.opt (.tok .NAI)))) spaceIntProps) (.opt timeRE)) (.seq (.tok .CAhA) (.opt (.tok .KI)))),
  (.seq (.seq (.seq (.tok .VIhA) spaceIntProps) (.opt timeRE)) (.seq (.tok .CAhA) (.opt (.tok .KI)))),
  (.seq (.seq (.seq (.seq (.tok .FAhA) (.opt (.tok .NAI))) spaceIntProps) (.opt timeRE)) (.seq (.tok .CAhA) (.opt (.tok .KI)))),
  (.seq (.seq spaceIntProps (.opt timeRE)) (.seq (.tok .CAhA) (.opt (.tok .KI)))),
  (.seq (.seq (.seq (.tok .VIhA) (.seq (.tok .FAhA) (.opt (.tok .NAI)))) (.opt timeRE)) (.seq (.tok .CAhA) (.opt (.tok .KI)))),
  (.seq (.seq (.tok .VIhA) (.opt timeRE)) (.seq (.tok .CAhA) (.opt (.tok .KI)))),
  (.seq (.seq (.seq (.tok .FAhA) (.opt (.tok .NAI))) (.opt timeRE)) (.seq (.tok .CAhA) (.opt (.tok .KI)))),
  (.seq (.seq (.seq (.seq (.seq (.tok .VIhA) (.seq (.tok .FAhA) (.opt (.tok .NAI)))) spaceIntProps) mohiSpaceOffset) (.opt timeRE)) (.opt (.tok .KI))),
  (.seq (.seq (.seq (.seq (.tok .VIhA) spaceIntProps) mohiSpaceOffset) (.opt timeRE)) (.opt (.tok .KI))),
  (.seq (.seq (.seq (.seq (.seq (.tok .FAhA) (.opt (.tok .NAI))) spaceIntProps) mohiSpaceOffset) (.opt timeRE)) (.opt (.tok .KI))),
  (.seq (.seq (.seq spaceIntProps mohiSpaceOffset) (.opt timeRE)) (.opt (.tok .KI))),
  (.seq (.seq (.seq (.seq (.tok .VIhA) (.seq (.tok .FAhA) (.opt (.tok .NAI)))) mohiSpaceOffset) (.opt timeRE)) (.opt (.tok .KI))),
  (.seq (.seq (.seq (.tok .VIhA) mohiSpaceOffset) (.opt timeRE)) (.opt (.tok .KI))),
  (.seq (.seq (.seq (.seq (.tok .FAhA) (.opt (.tok .NAI))) mohiSpaceOffset) (.opt timeRE)) (.opt (.tok .KI))),
  (.seq (.seq mohiSpaceOffset (.opt timeRE)) (.opt (.tok .KI))),
  (.seq (.seq (.seq (.seq (.tok .VIhA) (.seq (.tok .FAhA) (.opt (.tok .NAI)))) spaceIntProps) (.opt timeRE)) (.opt (.tok .KI))),
  (.seq (.seq (.seq (.tok .VIhA) spaceIntProps) (.opt timeRE)) (.opt (.tok .KI))),
  (.seq (.seq (.seq (.seq (.tok .FAhA) (.opt (.tok .NAI))) spaceIntProps) (.opt timeRE)) (.opt (.tok .KI))),
  (.seq (.seq spaceIntProps (.opt timeRE)) (.opt (.tok .KI))),
  (.seq (.seq (.seq (.tok .VIhA) (.seq (.tok .FAhA) (.opt (.tok .NAI)))) (.opt timeRE)) (.opt (.tok .KI))),
  (.seq (.seq (.tok .VIhA) (.opt timeRE)) (.opt (.tok .KI))),
  (.seq (.seq (.seq (.tok .FAhA) (.opt (.tok .NAI))) (.opt timeRE)) (.opt (.tok .KI))),
  (.seq (.seq (.seq (.seq (.tok .PU) (.tok .NAI)) intervalPropertySeq) (.opt spaceRE)) (.seq (.tok .CAhA) (.opt (.tok .KI)))),
  (.seq (.seq (.seq (.tok .PU) intervalPropertySeq) (.opt spaceRE)) (.seq (.tok .CAhA) (.opt (.tok .KI)))),
  (.seq (.seq intervalPropertySeq (.opt spaceRE)) (.seq (.tok .CAhA) (.opt (.tok .KI)))),
  (.seq (.seq (.seq (.tok .PU) (.tok .NAI)) (.opt spaceRE)) (.seq (.tok .CAhA) (.opt (.tok .KI)))),
  (.seq (.seq (.tok .PU) (.opt spaceRE)) (.seq (.tok .CAhA) (.opt (.tok .KI)))),
  (.seq (.opt spaceRE) (.seq (.tok .CAhA) (.opt (.tok .KI)))),
  (.seq (.seq (.seq (.seq (.tok .PU) (.tok .NAI)) intervalPropertySeq) (.opt spaceRE)) (.opt (.tok .KI))),
  (.seq (.seq (.seq (.tok .PU) intervalPropertySeq) (.opt spaceRE)) (.opt (.tok .KI)))]

/-- The alternatives (from number 80). -/
def atoms2 : List RE := [
  (.seq (.seq intervalPropertySeq (.opt spaceRE)) (.opt (.tok .KI))),
  (.seq (.seq (.seq (.tok .PU) (.tok .NAI)) (.opt spaceRE)) (.opt (.tok .KI))),
  (.seq (.seq (.tok .PU) (.opt spaceRE)) (.opt (.tok .KI))),
  (.seq (.opt spaceRE) (.opt (.tok .KI))),
  (.seq (.seq (.seq (.opt timeOffset) (.seq (.opt zehaPuNai) intervalPropertySeq)) (.opt spaceRE)) (.seq (.tok .CAhA) (.opt (.tok .KI)))),
  (.seq (.seq (.seq (.opt timeOffset) zehaPuNai) (.opt spaceRE)) (.seq (.tok .CAhA) (.opt (.tok .KI)))),
  (.seq (.seq timeOffset (.opt spaceRE)) (.seq (.tok .CAhA) (.opt (.tok .KI)))),
  (.seq (.seq (.seq (.opt timeOffset) (.seq (.opt zehaPuNai) intervalPropertySeq)) (.opt spaceRE)) (.opt (.tok .KI))),
  (.seq (.seq (.seq (.opt timeOffset) zehaPuNai) (.opt spaceRE)) (.opt (.tok .KI))),
  (.seq (.seq timeOffset (.opt spaceRE)) (.opt (.tok .KI))),
  (.seq (.seq (.seq (.seq (.opt (.tok .VA)) (.star (.seq (.tok .FAhA) (.seq (.opt (.tok .NAI)) (.opt (.tok .VA)))))) (.seq (.opt spaceInterval) mohiSpaceOffset)) (.opt timeRE)) (.seq (.tok .CAhA) (.opt (.tok .KI)))),
  (.seq (.seq (.seq (.star (.seq (.tok .FAhA) (.seq (.opt (.tok .NAI)) (.opt (.tok .VA))))) (.seq (.opt spaceInterval) mohiSpaceOffset)) (.opt timeRE)) (.seq (.tok .CAhA) (.opt (.tok .KI)))),
  (.seq (.seq (.seq (.seq (.opt (.tok .VA)) (.star (.seq (.tok .FAhA) (.seq (.opt (.tok .NAI)) (.opt (.tok .VA)))))) spaceInterval) (.opt timeRE)) (.seq (.tok .CAhA) (.opt (.tok .KI)))),
  (.seq (.seq (.seq (.star (.seq (.tok .FAhA) (.seq (.opt (.tok .NAI)) (.opt (.tok .VA))))) spaceInterval) (.opt timeRE)) (.seq (.tok .CAhA) (.opt (.tok .KI)))),
  (.seq (.seq (.seq (.opt (.tok .VA)) (.star (.seq (.tok .FAhA) (.seq (.opt (.tok .NAI)) (.opt (.tok .VA)))))) (.opt timeRE)) (.seq (.tok .CAhA) (.opt (.tok .KI)))),
  (.seq (.seq (.seq (.star (.alt (.alt (.alt (.alt (.alt (.tok .PA) (.tok .BY)) (.tok .BU)) (.tok .LAU)) (.tok .FOI)) (.tok .TEI))) (.seq (.tok .ROI) (.opt (.tok .NAI)))) (.star intervalProperty)) (.seq (.tok .CAhA) (.opt (.tok .KI)))),
  (.seq (.seq (.seq (.seq (.opt (.tok .NAI)) (.opt (.tok .ZI))) (.star (.seq (.tok .PU) (.seq (.opt (.tok .NAI)) (.opt (.tok .ZI)))))) (.seq (.opt zehaPuNai) intervalPropertySeq)) (.seq (.tok .CAhA) (.opt (.tok .KI)))),
  (.seq (.seq (.seq (.seq (.opt (.tok .NAI)) (.opt (.tok .ZI))) (.star (.seq (.tok .PU) (.seq (.opt (.tok .NAI)) (.opt (.tok .ZI)))))) zehaPuNai) (.seq (.tok .CAhA) (.opt (.tok .KI)))),
  (.seq (.seq (.seq (.opt (.tok .NAI)) (.opt (.tok .ZI))) (.star (.seq (.tok .PU) (.seq (.opt (.tok .NAI)) (.opt (.tok .ZI)))))) (.seq (.tok .CAhA) (.opt (.tok .KI)))),
  (.seq (.seq (.opt (.tok .NAI)) (.star intervalProperty)) (.seq (.tok .CAhA) (.opt (.tok .KI)))),
  (.seq (.seq (.star (.seq (.tok .FAhA) (.seq (.opt (.tok .NAI)) (.opt (.tok .VA))))) (.opt timeRE)) (.seq (.tok .CAhA) (.opt (.tok .KI)))),
  (.seq (.seq (.seq (.tok .PU) (.tok .NAI)) intervalPropertySeq) (.seq (.tok .CAhA) (.opt (.tok .KI)))),
  (.seq (.seq (.tok .PU) intervalPropertySeq) (.seq (.tok .CAhA) (.opt (.tok .KI)))),
  (.seq intervalPropertySeq (.seq (.tok .CAhA) (.opt (.tok .KI)))),
  (.seq (.seq (.tok .PU) (.tok .NAI)) (.seq (.tok .CAhA) (.opt (.tok .KI)))),
  (.seq (.tok .PU) (.seq (.tok .CAhA) (.opt (.tok .KI)))),
  (.seq (.tok .CAhA) (.opt (.tok .KI))),
  (.seq (.seq (.opt timeOffset) (.seq (.opt zehaPuNai) intervalPropertySeq)) (.seq (.tok .CAhA) (.opt (.tok .KI)))),
  (.seq (.seq (.opt timeOffset) zehaPuNai) (.seq (.tok .CAhA) (.opt (.tok .KI)))),
  (.seq timeOffset (.seq (.tok .CAhA) (.opt (.tok .KI)))),
  (.seq (.seq (.seq (.seq (.opt (.tok .VA)) (.star (.seq (.tok .FAhA) (.seq (.opt (.tok .NAI)) (.opt (.tok .VA)))))) (.seq (.opt spaceInterval) mohiSpaceOffset)) (.opt timeRE)) (.opt (.tok .KI))),
  (.seq (.seq (.seq (.star (.seq (.tok .FAhA) (.seq (.opt (.tok .NAI)) (.opt (.tok .VA))))) (.seq (.opt spaceInterval) mohiSpaceOffset)) (.opt timeRE)) (.opt (.tok .KI))),
  (.seq (.seq (.seq (.seq (.opt (.tok .VA)) (.star (.seq (.tok .FAhA) (.seq (.opt (.tok .NAI)) (.opt (.tok .VA)))))) spaceInterval) (.opt timeRE)) (.opt (.tok .KI))),
  (.seq (.seq (.seq (.star (.seq (.tok .FAhA) (.seq (.opt (.tok .NAI)) (.opt (.tok .VA))))) spaceInterval) (.opt timeRE)) (.opt (.tok .KI))),
  (.seq (.seq (.seq (.opt (.tok .VA)) (.star (.seq (.tok .FAhA) (.seq (.opt (.tok .NAI)) (.opt (.tok .VA)))))) (.opt timeRE)) (.opt (.tok .KI))),
  (.seq (.seq (.seq (.star (.alt (.alt (.alt (.alt (.alt (.tok .PA) (.tok .BY)) (.tok .BU)) (.tok .LAU)) (.tok .FOI)) (.tok .TEI))) (.seq (.tok .ROI) (.opt (.tok .NAI)))) (.star intervalProperty)) (.opt (.tok .KI))),
  (.seq (.seq (.seq (.seq (.opt (.tok .NAI)) (.opt (.tok .ZI))) (.star (.seq (.tok .PU) (.seq (.opt (.tok .NAI)) (.opt (.tok .ZI)))))) (.seq (.opt zehaPuNai) intervalPropertySeq)) (.opt (.tok .KI))),
  (.seq (.seq (.seq (.seq (.opt (.tok .NAI)) (.opt (.tok .ZI))) (.star (.seq (.tok .PU) (.seq (.opt (.tok .NAI)) (.opt (.tok .ZI)))))) zehaPuNai) (.opt (.tok .KI))),
  (.seq (.seq (.seq (.opt (.tok .NAI)) (.opt (.tok .ZI))) (.star (.seq (.tok .PU) (.seq (.opt (.tok .NAI)) (.opt (.tok .ZI)))))) (.opt (.tok .KI))),
  (.seq (.seq (.opt (.tok .NAI)) (.star intervalProperty)) (.opt (.tok .KI)))]

/-- The alternatives (from number 120). -/
def atoms3 : List RE := [
  (.seq (.seq (.star (.seq (.tok .FAhA) (.seq (.opt (.tok .NAI)) (.opt (.tok .VA))))) (.opt timeRE)) (.opt (.tok .KI))),
  (.seq (.seq (.seq (.tok .PU) (.tok .NAI)) intervalPropertySeq) (.opt (.tok .KI))),
  (.seq (.seq (.tok .PU) intervalPropertySeq) (.opt (.tok .KI))),
  (.seq intervalPropertySeq (.opt (.tok .KI))),
  (.seq (.seq (.tok .PU) (.tok .NAI)) (.opt (.tok .KI))),
  (.seq (.tok .PU) (.opt (.tok .KI))),
  (.seq (.seq (.opt timeOffset) (.seq (.opt zehaPuNai) intervalPropertySeq)) (.opt (.tok .KI))),
  (.seq (.seq (.opt timeOffset) zehaPuNai) (.opt (.tok .KI))),
  (.seq timeOffset (.opt (.tok .KI))),
  (.seq (.seq (.seq (.seq (.seq (.star (.alt (.alt (.alt (.alt (.alt (.tok .PA) (.tok .BY)) (.tok .BU)) (.tok .LAU)) (.tok .FOI)) (.tok .TEI))) (.seq (.tok .ROI) (.opt (.tok .NAI)))) (.star (.seq (.tok .FEhE) intervalProperty))) mohiSpaceOffset) (.opt timeRE)) (.seq (.tok .CAhA) (.opt (.tok .KI)))),
  (.seq (.seq (.seq (.seq (.opt (.tok .NAI)) (.star (.seq (.tok .FEhE) intervalProperty))) mohiSpaceOffset) (.opt timeRE)) (.seq (.tok .CAhA) (.opt (.tok .KI)))),
  (.seq (.seq (.seq (.seq (.star (.alt (.alt (.alt (.alt (.alt (.tok .PA) (.tok .BY)) (.tok .BU)) (.tok .LAU)) (.tok .FOI)) (.tok .TEI))) (.seq (.tok .ROI) (.opt (.tok .NAI)))) (.star (.seq (.tok .FEhE) intervalProperty))) (.opt timeRE)) (.seq (.tok .CAhA) (.opt (.tok .KI)))),
  (.seq (.seq (.seq (.opt (.tok .NAI)) (.star (.seq (.tok .FEhE) intervalProperty))) (.opt timeRE)) (.seq (.tok .CAhA) (.opt (.tok .KI)))),
  (.seq (.seq (.seq (.seq (.seq (.star (.alt (.alt (.alt (.alt (.alt (.tok .PA) (.tok .BY)) (.tok .BU)) (.tok .LAU)) (.tok .FOI)) (.tok .TEI))) (.seq (.tok .ROI) (.opt (.tok .NAI)))) (.star (.seq (.tok .FEhE) intervalProperty))) mohiSpaceOffset) (.opt timeRE)) (.opt (.tok .KI))),
  (.seq (.seq (.seq (.seq (.opt (.tok .NAI)) (.star (.seq (.tok .FEhE) intervalProperty))) mohiSpaceOffset) (.opt timeRE)) (.opt (.tok .KI))),
  (.seq (.seq (.seq (.seq (.star (.alt (.alt (.alt (.alt (.alt (.tok .PA) (.tok .BY)) (.tok .BU)) (.tok .LAU)) (.tok .FOI)) (.tok .TEI))) (.seq (.tok .ROI) (.opt (.tok .NAI)))) (.star (.seq (.tok .FEhE) intervalProperty))) (.opt timeRE)) (.opt (.tok .KI))),
  (.seq (.seq (.seq (.opt (.tok .NAI)) (.star (.seq (.tok .FEhE) intervalProperty))) (.opt timeRE)) (.opt (.tok .KI))),
  (.seq (.seq (.seq (.opt (.tok .NAI)) (.opt (.tok .VA))) (.opt timeRE)) (.seq (.tok .CAhA) (.opt (.tok .KI)))),
  (.seq (.seq (.seq (.opt (.tok .NAI)) (.opt (.tok .VA))) (.opt timeRE)) (.opt (.tok .KI))),
  (.seq (.seq (.seq (.seq (.opt (.tok .ZI)) (.star (.seq (.tok .PU) (.seq (.opt (.tok .NAI)) (.opt (.tok .ZI)))))) (.seq (.opt zehaPuNai) intervalPropertySeq)) (.opt spaceRE)) (.seq (.tok .CAhA) (.opt (.tok .KI)))),
  (.seq (.seq (.seq (.star (.seq (.tok .PU) (.seq (.opt (.tok .NAI)) (.opt (.tok .ZI))))) (.seq (.opt zehaPuNai) intervalPropertySeq)) (.opt spaceRE)) (.seq (.tok .CAhA) (.opt (.tok .KI)))),
  (.seq (.seq (.seq (.seq (.opt (.tok .ZI)) (.star (.seq (.tok .PU) (.seq (.opt (.tok .NAI)) (.opt (.tok .ZI)))))) zehaPuNai) (.opt spaceRE)) (.seq (.tok .CAhA) (.opt (.tok .KI)))),
  (.seq (.seq (.seq (.star (.seq (.tok .PU) (.seq (.opt (.tok .NAI)) (.opt (.tok .ZI))))) zehaPuNai) (.opt spaceRE)) (.seq (.tok .CAhA) (.opt (.tok .KI)))),
  (.seq (.seq (.seq (.seq (.opt (.tok .NAI)) (.opt (.tok .VA))) (.star (.seq (.tok .FAhA) (.seq (.opt (.tok .NAI)) (.opt (.tok .VA)))))) (.seq (.opt spaceInterval) mohiSpaceOffset)) (.seq (.tok .CAhA) (.opt (.tok .KI)))),
  (.seq (.seq (.seq (.seq (.opt (.tok .NAI)) (.opt (.tok .VA))) (.star (.seq (.tok .FAhA) (.seq (.opt (.tok .NAI)) (.opt (.tok .VA)))))) spaceInterval) (.seq (.tok .CAhA) (.opt (.tok .KI)))),
  (.seq (.seq (.seq (.opt (.tok .NAI)) (.opt (.tok .VA))) (.star (.seq (.tok .FAhA) (.seq (.opt (.tok .NAI)) (.opt (.tok .VA)))))) (.seq (.tok .CAhA) (.opt (.tok .KI)))),
  (.seq (.seq (.seq intervalProperty (.star (.seq (.tok .FEhE) intervalProperty))) mohiSpaceOffset) (.seq (.tok .CAhA) (.opt (.tok .KI)))),
  (.seq (.seq intervalProperty (.star (.seq (.tok .FEhE) intervalProperty))) (.seq (.tok .CAhA) (.opt (.tok .KI)))),
  (.seq (.seq (.tok .FAhA) (.seq (.opt (.tok .NAI)) (.opt (.tok .VA)))) (.seq (.tok .CAhA) (.opt (.tok .KI)))),
  (.seq (.seq (.seq (.opt (.tok .ZI)) (.star (.seq (.tok .PU) (.seq (.opt (.tok .NAI)) (.opt (.tok .ZI)))))) (.opt spaceRE)) (.seq (.tok .CAhA) (.opt (.tok .KI)))),
  (.seq (.seq (.opt spaceOffset) (.seq (.opt spaceInterval) mohiSpaceOffset)) (.seq (.tok .CAhA) (.opt (.tok .KI)))),
  (.seq (.seq (.opt spaceOffset) spaceInterval) (.seq (.tok .CAhA) (.opt (.tok .KI)))),
  (.seq spaceOffset (.seq (.tok .CAhA) (.opt (.tok .KI)))),
  (.seq (.seq (.seq (.seq (.tok .VIhA) (.seq (.tok .FAhA) (.opt (.tok .NAI)))) spaceIntProps) mohiSpaceOffset) (.seq (.tok .CAhA) (.opt (.tok .KI)))),
  (.seq (.seq (.seq (.tok .VIhA) spaceIntProps) mohiSpaceOffset) (.seq (.tok .CAhA) (.opt (.tok .KI)))),
  (.seq (.seq (.seq (.seq (.tok .FAhA) (.opt (.tok .NAI))) spaceIntProps) mohiSpaceOffset) (.seq (.tok .CAhA) (.opt (.tok .KI)))),
  (.seq (.seq spaceIntProps mohiSpaceOffset) (.seq (.tok .CAhA) (.opt (.tok .KI)))),
  (.seq (.seq (.seq (.tok .VIhA) (.seq (.tok .FAhA) (.opt (.tok .NAI)))) mohiSpaceOffset) (.seq (.tok .CAhA) (.opt (.tok .KI)))),
  (.seq (.seq (.tok .VIhA) mohiSpaceOffset) (.seq (.tok .CAhA) (.opt (.tok .KI)))),
  (.seq (.seq (.seq (.tok .FAhA) (.opt (.tok .NAI))) mohiSpaceOffset) (.seq (.tok .CAhA) (.opt (.tok .KI))))]

/-- The alternatives (from number 160). -/
def atoms4 : List RE := [
  (.seq mohiSpaceOffset (.seq (.tok .CAhA) (.opt (.tok .KI)))),
  (.seq (.seq (.seq (.tok .VIhA) (.seq (.tok .FAhA) (.opt (.tok .NAI)))) spaceIntProps) (.seq (.tok .CAhA) (.opt (.tok .KI)))),
  (.seq (.seq (.tok .VIhA) spaceIntProps) (.seq (.tok .CAhA) (.opt (.tok .KI)))),
  (.seq (.seq (.seq (.tok .FAhA) (.opt (.tok .NAI))) spaceIntProps) (.seq (.tok .CAhA) (.opt (.tok .KI)))),
  (.seq spaceIntProps (.seq (.tok .CAhA) (.opt (.tok .KI)))),
  (.seq (.seq (.tok .VIhA) (.seq (.tok .FAhA) (.opt (.tok .NAI)))) (.seq (.tok .CAhA) (.opt (.tok .KI)))),
  (.seq (.tok .VIhA) (.seq (.tok .CAhA) (.opt (.tok .KI)))),
  (.seq (.seq (.tok .FAhA) (.opt (.tok .NAI))) (.seq (.tok .CAhA) (.opt (.tok .KI)))),
  (.seq (.seq (.star (.seq (.tok .PU) (.seq (.opt (.tok .NAI)) (.opt (.tok .ZI))))) (.opt spaceRE)) (.seq (.tok .CAhA) (.opt (.tok .KI)))),
  (.seq (.seq (.seq (.seq (.opt (.tok .ZI)) (.star (.seq (.tok .PU) (.seq (.opt (.tok .NAI)) (.opt (.tok .ZI)))))) (.seq (.opt zehaPuNai) intervalPropertySeq)) (.opt spaceRE)) (.opt (.tok .KI))),
  (.seq (.seq (.seq (.star (.seq (.tok .PU) (.seq (.opt (.tok .NAI)) (.opt (.tok .ZI))))) (.seq (.opt zehaPuNai) intervalPropertySeq)) (.opt spaceRE)) (.opt (.tok .KI))),
  (.seq (.seq (.seq (.seq (.opt (.tok .ZI)) (.star (.seq (.tok .PU) (.seq (.opt (.tok .NAI)) (.opt (.tok .ZI)))))) zehaPuNai) (.opt spaceRE)) (.opt (.tok .KI))),
  (.seq (.seq (.seq (.star (.seq (.tok .PU) (.seq (.opt (.tok .NAI)) (.opt (.tok .ZI))))) zehaPuNai) (.opt spaceRE)) (.opt (.tok .KI))),
  (.seq (.seq (.seq (.seq (.opt (.tok .NAI)) (.opt (.tok .VA))) (.star (.seq (.tok .FAhA) (.seq (.opt (.tok .NAI)) (.opt (.tok .VA)))))) (.seq (.opt spaceInterval) mohiSpaceOffset)) (.opt (.tok .KI))),
  (.seq (.seq (.seq (.seq (.opt (.tok .NAI)) (.opt (.tok .VA))) (.star (.seq (.tok .FAhA) (.seq (.opt (.tok .NAI)) (.opt (.tok .VA)))))) spaceInterval) (.opt (.tok .KI))),
  (.seq (.seq (.seq (.opt (.tok .NAI)) (.opt (.tok .VA))) (.star (.seq (.tok .FAhA) (.seq (.opt (.tok .NAI)) (.opt (.tok .VA)))))) (.opt (.tok .KI))),
  (.seq (.seq (.seq intervalProperty (.star (.seq (.tok .FEhE) intervalProperty))) mohiSpaceOffset) (.opt (.tok .KI))),
  (.seq (.seq intervalProperty (.star (.seq (.tok .FEhE) intervalProperty))) (.opt (.tok .KI))),
  (.seq (.seq (.tok .FAhA) (.seq (.opt (.tok .NAI)) (.opt (.tok .VA)))) (.opt (.tok .KI))),
  (.seq (.seq (.seq (.opt (.tok .ZI)) (.star (.seq (.tok .PU) (.seq (.opt (.tok .NAI)) (.opt (.tok .ZI)))))) (.opt spaceRE)) (.opt (.tok .KI))),
  (.seq (.seq (.opt spaceOffset) (.seq (.opt spaceInterval) mohiSpaceOffset)) (.opt (.tok .KI))),
  (.seq (.seq (.opt spaceOffset) spaceInterval) (.opt (.tok .KI))),
  (.seq spaceOffset (.opt (.tok .KI))),
  (.seq (.seq (.seq (.seq (.tok .VIhA) (.seq (.tok .FAhA) (.opt (.tok .NAI)))) spaceIntProps) mohiSpaceOffset) (.opt (.tok .KI))),
  (.seq (.seq (.seq (.tok .VIhA) spaceIntProps) mohiSpaceOffset) (.opt (.tok .KI))),
  (.seq (.seq (.seq (.seq (.tok .FAhA) (.opt (.tok .NAI))) spaceIntProps) mohiSpaceOffset) (.opt (.tok .KI))),
  (.seq (.seq spaceIntProps mohiSpaceOffset) (.opt (.tok .KI))),
  (.seq (.seq (.seq (.tok .VIhA) (.seq (.tok .FAhA) (.opt (.tok .NAI)))) mohiSpaceOffset) (.opt (.tok .KI))),
  (.seq (.seq (.tok .VIhA) mohiSpaceOffset) (.opt (.tok .KI))),
  (.seq (.seq (.seq (.tok .FAhA) (.opt (.tok .NAI))) mohiSpaceOffset) (.opt (.tok .KI))),
  (.seq mohiSpaceOffset (.opt (.tok .KI))),
  (.seq (.seq (.seq (.tok .VIhA) (.seq (.tok .FAhA) (.opt (.tok .NAI)))) spaceIntProps) (.opt (.tok .KI))),
  (.seq (.seq (.tok .VIhA) spaceIntProps) (.opt (.tok .KI))),
  (.seq (.seq (.seq (.tok .FAhA) (.opt (.tok .NAI))) spaceIntProps) (.opt (.tok .KI))),
  (.seq spaceIntProps (.opt (.tok .KI))),
  (.seq (.seq (.tok .VIhA) (.seq (.tok .FAhA) (.opt (.tok .NAI)))) (.opt (.tok .KI))),
  (.seq (.tok .VIhA) (.opt (.tok .KI))),
  (.seq (.seq (.tok .FAhA) (.opt (.tok .NAI))) (.opt (.tok .KI))),
  (.seq (.seq (.star (.seq (.tok .PU) (.seq (.opt (.tok .NAI)) (.opt (.tok .ZI))))) (.opt spaceRE)) (.opt (.tok .KI))),
  (.seq (.seq (.star intervalProperty) (.opt spaceRE)) (.seq (.tok .CAhA) (.opt (.tok .KI))))]

/-- The alternatives (from number 200). -/
def atoms5 : List RE := [
  (.seq (.seq (.star intervalProperty) (.opt spaceRE)) (.opt (.tok .KI))),
  (.seq (.seq (.seq (.seq (.opt (.tok .NAI)) spaceIntProps) mohiSpaceOffset) (.opt timeRE)) (.seq (.tok .CAhA) (.opt (.tok .KI)))),
  (.seq (.seq (.seq (.opt (.tok .NAI)) mohiSpaceOffset) (.opt timeRE)) (.seq (.tok .CAhA) (.opt (.tok .KI)))),
  (.seq (.seq (.seq (.opt (.tok .NAI)) spaceIntProps) (.opt timeRE)) (.seq (.tok .CAhA) (.opt (.tok .KI)))),
  (.seq (.seq (.opt (.tok .NAI)) (.opt timeRE)) (.seq (.tok .CAhA) (.opt (.tok .KI)))),
  (.seq (.seq (.seq (.seq (.opt (.tok .NAI)) spaceIntProps) mohiSpaceOffset) (.opt timeRE)) (.opt (.tok .KI))),
  (.seq (.seq (.seq (.opt (.tok .NAI)) mohiSpaceOffset) (.opt timeRE)) (.opt (.tok .KI))),
  (.seq (.seq (.seq (.opt (.tok .NAI)) spaceIntProps) (.opt timeRE)) (.opt (.tok .KI))),
  (.seq (.seq (.opt (.tok .NAI)) (.opt timeRE)) (.opt (.tok .KI))),
  (.seq (.seq (.seq (.tok .NAI) intervalPropertySeq) (.opt spaceRE)) (.seq (.tok .CAhA) (.opt (.tok .KI)))),
  (.seq (.seq (.tok .NAI) (.opt spaceRE)) (.seq (.tok .CAhA) (.opt (.tok .KI)))),
  (.seq (.seq (.seq (.tok .NAI) intervalPropertySeq) (.opt spaceRE)) (.opt (.tok .KI))),
  (.seq (.seq (.tok .NAI) (.opt spaceRE)) (.opt (.tok .KI))),
  (.seq (.seq (.seq (.opt (.tok .ZI)) (.star (.seq (.tok .PU) (.seq (.opt (.tok .NAI)) (.opt (.tok .ZI)))))) (.seq (.opt zehaPuNai) intervalPropertySeq)) (.seq (.tok .CAhA) (.opt (.tok .KI)))),
  (.seq (.seq (.star (.seq (.tok .PU) (.seq (.opt (.tok .NAI)) (.opt (.tok .ZI))))) (.seq (.opt zehaPuNai) intervalPropertySeq)) (.seq (.tok .CAhA) (.opt (.tok .KI)))),
  (.seq (.seq (.seq (.opt (.tok .ZI)) (.star (.seq (.tok .PU) (.seq (.opt (.tok .NAI)) (.opt (.tok .ZI)))))) zehaPuNai) (.seq (.tok .CAhA) (.opt (.tok .KI)))),
  (.seq (.seq (.star (.seq (.tok .PU) (.seq (.opt (.tok .NAI)) (.opt (.tok .ZI))))) zehaPuNai) (.seq (.tok .CAhA) (.opt (.tok .KI)))),
  (.seq (.seq (.opt (.tok .ZI)) (.star (.seq (.tok .PU) (.seq (.opt (.tok .NAI)) (.opt (.tok .ZI)))))) (.seq (.tok .CAhA) (.opt (.tok .KI)))),
  (.seq (.star (.seq (.tok .PU) (.seq (.opt (.tok .NAI)) (.opt (.tok .ZI))))) (.seq (.tok .CAhA) (.opt (.tok .KI)))),
  (.seq (.star intervalProperty) (.seq (.tok .CAhA) (.opt (.tok .KI)))),
  (.seq (.seq (.tok .NAI) intervalPropertySeq) (.seq (.tok .CAhA) (.opt (.tok .KI)))),
  (.seq (.tok .NAI) (.seq (.tok .CAhA) (.opt (.tok .KI)))),
  (.seq (.seq (.seq (.opt (.tok .ZI)) (.star (.seq (.tok .PU) (.seq (.opt (.tok .NAI)) (.opt (.tok .ZI)))))) (.seq (.opt zehaPuNai) intervalPropertySeq)) (.opt (.tok .KI))),
  (.seq (.seq (.star (.seq (.tok .PU) (.seq (.opt (.tok .NAI)) (.opt (.tok .ZI))))) (.seq (.opt zehaPuNai) intervalPropertySeq)) (.opt (.tok .KI))),
  (.seq (.seq (.seq (.opt (.tok .ZI)) (.star (.seq (.tok .PU) (.seq (.opt (.tok .NAI)) (.opt (.tok .ZI)))))) zehaPuNai) (.opt (.tok .KI))),
  (.seq (.seq (.star (.seq (.tok .PU) (.seq (.opt (.tok .NAI)) (.opt (.tok .ZI))))) zehaPuNai) (.opt (.tok .KI))),
  (.seq (.seq (.opt (.tok .ZI)) (.star (.seq (.tok .PU) (.seq (.opt (.tok .NAI)) (.opt (.tok .ZI)))))) (.opt (.tok .KI))),
  (.seq (.star (.seq (.tok .PU) (.seq (.opt (.tok .NAI)) (.opt (.tok .ZI))))) (.opt (.tok .KI))),
  (.seq (.star intervalProperty) (.opt (.tok .KI))),
  (.seq (.seq (.tok .NAI) intervalPropertySeq) (.opt (.tok .KI))),
  (.seq (.tok .NAI) (.opt (.tok .KI))),
  (.seq (.seq (.seq (.star (.seq (.tok .FEhE) intervalProperty)) mohiSpaceOffset) (.opt timeRE)) (.seq (.tok .CAhA) (.opt (.tok .KI)))),
  (.seq (.seq (.star (.seq (.tok .FEhE) intervalProperty)) (.opt timeRE)) (.seq (.tok .CAhA) (.opt (.tok .KI)))),
  (.seq (.seq (.seq (.star (.seq (.tok .FEhE) intervalProperty)) mohiSpaceOffset) (.opt timeRE)) (.opt (.tok .KI))),
  (.seq (.seq (.star (.seq (.tok .FEhE) intervalProperty)) (.opt timeRE)) (.opt (.tok .KI))),
  (.seq (.seq (.opt (.tok .VA)) (.opt timeRE)) (.seq (.tok .CAhA) (.opt (.tok .KI)))),
  (.seq (.seq (.opt (.tok .VA)) (.opt timeRE)) (.opt (.tok .KI))),
  (.seq (.seq (.seq (.opt (.tok .VA)) (.star (.seq (.tok .FAhA) (.seq (.opt (.tok .NAI)) (.opt (.tok .VA)))))) (.seq (.opt spaceInterval) mohiSpaceOffset)) (.seq (.tok .CAhA) (.opt (.tok .KI)))),
  (.seq (.seq (.star (.seq (.tok .FAhA) (.seq (.opt (.tok .NAI)) (.opt (.tok .VA))))) (.seq (.opt spaceInterval) mohiSpaceOffset)) (.seq (.tok .CAhA) (.opt (.tok .KI)))),
  (.seq (.seq (.seq (.opt (.tok .VA)) (.star (.seq (.tok .FAhA) (.seq (.opt (.tok .NAI)) (.opt (.tok .VA)))))) spaceInterval) (.seq (.tok .CAhA) (.opt (.tok .KI))))]

/-- The alternatives (from number 240). -/
def atoms6 : List RE := [
  (.seq (.seq (.star (.seq (.tok .FAhA) (.seq (.opt (.tok .NAI)) (.opt (.tok .VA))))) spaceInterval) (.seq (.tok .CAhA) (.opt (.tok .KI)))),
  (.seq (.seq (.opt (.tok .VA)) (.star (.seq (.tok .FAhA) (.seq (.opt (.tok .NAI)) (.opt (.tok .VA)))))) (.seq (.tok .CAhA) (.opt (.tok .KI)))),
  (.seq (.star (.seq (.tok .FAhA) (.seq (.opt (.tok .NAI)) (.opt (.tok .VA))))) (.seq (.tok .CAhA) (.opt (.tok .KI)))),
  (.seq (.seq (.seq (.seq (.star (.alt (.alt (.alt (.alt (.alt (.tok .PA) (.tok .BY)) (.tok .BU)) (.tok .LAU)) (.tok .FOI)) (.tok .TEI))) (.seq (.tok .ROI) (.opt (.tok .NAI)))) (.star (.seq (.tok .FEhE) intervalProperty))) mohiSpaceOffset) (.seq (.tok .CAhA) (.opt (.tok .KI)))),
  (.seq (.seq (.seq (.opt (.tok .NAI)) (.star (.seq (.tok .FEhE) intervalProperty))) mohiSpaceOffset) (.seq (.tok .CAhA) (.opt (.tok .KI)))),
  (.seq (.seq (.seq (.star (.alt (.alt (.alt (.alt (.alt (.tok .PA) (.tok .BY)) (.tok .BU)) (.tok .LAU)) (.tok .FOI)) (.tok .TEI))) (.seq (.tok .ROI) (.opt (.tok .NAI)))) (.star (.seq (.tok .FEhE) intervalProperty))) (.seq (.tok .CAhA) (.opt (.tok .KI)))),
  (.seq (.seq (.opt (.tok .NAI)) (.star (.seq (.tok .FEhE) intervalProperty))) (.seq (.tok .CAhA) (.opt (.tok .KI)))),
  (.seq (.seq (.opt (.tok .NAI)) (.opt (.tok .VA))) (.seq (.tok .CAhA) (.opt (.tok .KI)))),
  (.seq (.seq (.seq (.opt (.tok .NAI)) spaceIntProps) mohiSpaceOffset) (.seq (.tok .CAhA) (.opt (.tok .KI)))),
  (.seq (.seq (.opt (.tok .NAI)) mohiSpaceOffset) (.seq (.tok .CAhA) (.opt (.tok .KI)))),
  (.seq (.seq (.opt (.tok .NAI)) spaceIntProps) (.seq (.tok .CAhA) (.opt (.tok .KI)))),
  (.seq (.opt (.tok .NAI)) (.seq (.tok .CAhA) (.opt (.tok .KI)))),
  (.seq (.seq (.seq (.opt (.tok .VA)) (.star (.seq (.tok .FAhA) (.seq (.opt (.tok .NAI)) (.opt (.tok .VA)))))) (.seq (.opt spaceInterval) mohiSpaceOffset)) (.opt (.tok .KI))),
  (.seq (.seq (.star (.seq (.tok .FAhA) (.seq (.opt (.tok .NAI)) (.opt (.tok .VA))))) (.seq (.opt spaceInterval) mohiSpaceOffset)) (.opt (.tok .KI))),
  (.seq (.seq (.seq (.opt (.tok .VA)) (.star (.seq (.tok .FAhA) (.seq (.opt (.tok .NAI)) (.opt (.tok .VA)))))) spaceInterval) (.opt (.tok .KI))),
  (.seq (.seq (.star (.seq (.tok .FAhA) (.seq (.opt (.tok .NAI)) (.opt (.tok .VA))))) spaceInterval) (.opt (.tok .KI))),
  (.seq (.seq (.opt (.tok .VA)) (.star (.seq (.tok .FAhA) (.seq (.opt (.tok .NAI)) (.opt (.tok .VA)))))) (.opt (.tok .KI))),
  (.seq (.star (.seq (.tok .FAhA) (.seq (.opt (.tok .NAI)) (.opt (.tok .VA))))) (.opt (.tok .KI))),
  (.seq (.seq (.seq (.seq (.star (.alt (.alt (.alt (.alt (.alt (.tok .PA) (.tok .BY)) (.tok .BU)) (.tok .LAU)) (.tok .FOI)) (.tok .TEI))) (.seq (.tok .ROI) (.opt (.tok .NAI)))) (.star (.seq (.tok .FEhE) intervalProperty))) mohiSpaceOffset) (.opt (.tok .KI))),
  (.seq (.seq (.seq (.opt (.tok .NAI)) (.star (.seq (.tok .FEhE) intervalProperty))) mohiSpaceOffset) (.opt (.tok .KI))),
  (.seq (.seq (.seq (.star (.alt (.alt (.alt (.alt (.alt (.tok .PA) (.tok .BY)) (.tok .BU)) (.tok .LAU)) (.tok .FOI)) (.tok .TEI))) (.seq (.tok .ROI) (.opt (.tok .NAI)))) (.star (.seq (.tok .FEhE) intervalProperty))) (.opt (.tok .KI))),
  (.seq (.seq (.opt (.tok .NAI)) (.star (.seq (.tok .FEhE) intervalProperty))) (.opt (.tok .KI))),
  (.seq (.seq (.opt (.tok .NAI)) (.opt (.tok .VA))) (.opt (.tok .KI))),
  (.seq (.seq (.seq (.opt (.tok .NAI)) spaceIntProps) mohiSpaceOffset) (.opt (.tok .KI))),
  (.seq (.seq (.opt (.tok .NAI)) mohiSpaceOffset) (.opt (.tok .KI))),
  (.seq (.seq (.opt (.tok .NAI)) spaceIntProps) (.opt (.tok .KI))),
  (.seq (.seq (.star (.seq (.tok .FEhE) intervalProperty)) mohiSpaceOffset) (.seq (.tok .CAhA) (.opt (.tok .KI)))),
  (.seq (.star (.seq (.tok .FEhE) intervalProperty)) (.seq (.tok .CAhA) (.opt (.tok .KI)))),
  (.seq (.opt (.tok .VA)) (.seq (.tok .CAhA) (.opt (.tok .KI)))),
  (.seq (.seq (.star (.seq (.tok .FEhE) intervalProperty)) mohiSpaceOffset) (.opt (.tok .KI))),
  (.seq (.star (.seq (.tok .FEhE) intervalProperty)) (.opt (.tok .KI))),
  (.seq (.opt (.tok .VA)) (.opt (.tok .KI)))]

/-- What follows the alternatives (from number 0). -/
def follow0 : List (List (Nat × List Nat)) := [
  [(0, [1]), (3, [2]), (4, [3]), (5, [4, 5, 6, 7, 8, 9]), (6, [10, 11, 12, 13]), (8, [3]), (10, [14, 15]), (11, [16, 17, 18, 19, 20, 21, 22]), (13, [23, 24]), (14, [25, 26, 27, 28, 29, 30]), (16, [31]), (17, [32, 33]), (19, [34, 35, 36, 37, 38, 39, 40, 41]), (20, [42, 43, 44, 45, 46, 47, 48, 49, 50, 51, 52, 53, 54, 55, 56, 37, 57, 58, 59, 60, 61, 62, 63, 64, 65, 66, 67, 68, 69, 70, 71, 41]), (21, [44, 45, 48, 49, 52, 53, 56, 37, 59, 60, 63, 64, 67, 68, 71, 41]), (22, [32, 33]), (23, [72, 73, 74, 75, 76, 77, 78, 79, 80, 81, 82, 83]), (24, [84, 85, 86, 77, 87, 88, 89, 83])],
  [(8, [3]), (12, [2])],
  [(8, [3])],
  [],
  [(5, [4]), (6, [10]), (10, [14]), (12, [90]), (19, [91]), (20, [42, 43, 44, 45, 46, 47, 48, 49]), (21, [44, 45, 48, 49])],
  [(5, [5]), (6, [11]), (12, [92]), (19, [93]), (20, [50, 51, 52, 53, 54, 55, 56, 37]), (21, [52, 53, 56, 37])],
  [(3, [2]), (5, [6]), (12, [94]), (13, [95]), (14, [96, 97, 98]), (17, [99]), (19, [100]), (22, [99]), (23, [101, 102, 103, 104, 105, 106]), (24, [107, 108, 109, 106])],
  [(5, [7]), (6, [12]), (10, [15]), (12, [110]), (19, [111]), (20, [57, 58, 59, 60, 61, 62, 63, 64]), (21, [59, 60, 63, 64])],
  [(5, [8]), (6, [13]), (12, [112]), (19, [113]), (20, [65, 66, 67, 68, 69, 70, 71, 41]), (21, [67, 68, 71, 41])],
  [(5, [9]), (8, [3]), (12, [114]), (13, [115]), (14, [116, 117, 118]), (17, [119]), (19, [120]), (22, [119]), (23, [121, 122, 123, 124, 125, 2]), (24, [126, 127, 128, 2])],
  [(13, [129]), (17, [130]), (22, [130])],
  [(13, [131]), (17, [132]), (22, [132])],
  [(13, [133]), (17, [134]), (22, [134])],
  [(13, [135]), (17, [136]), (22, [136])],
  [(5, [137])],
  [(5, [138])],
  [(0, [1]), (16, [31])],
  [(3, [2]), (5, [4, 5, 6]), (6, [10, 11]), (10, [14]), (11, [18, 19]), (13, [23]), (14, [25, 26, 27]), (17, [32]), (19, [34, 35, 36, 37]), (20, [42, 43, 44, 45, 46, 47, 48, 49, 50, 51, 52, 53, 54, 55, 56, 37]), (21, [44, 45, 48, 49, 52, 53, 56, 37]), (22, [32]), (23, [72, 73, 74, 75, 76, 77]), (24, [84, 85, 86, 77])],
  [(13, [23]), (14, [25, 26, 27]), (17, [32]), (22, [32]), (23, [72, 73, 74, 75, 76, 77]), (24, [84, 85, 86, 77])],
  [(5, [4, 5, 6]), (6, [10, 11]), (10, [14]), (19, [34, 35, 36, 37]), (20, [42, 43, 44, 45, 46, 47, 48, 49, 50, 51, 52, 53, 54, 55, 56, 37]), (21, [44, 45, 48, 49, 52, 53, 56, 37])],
  [(5, [7, 8, 9]), (6, [12, 13]), (10, [15]), (11, [21, 22]), (13, [24]), (14, [28, 29, 30]), (17, [33]), (19, [38, 39, 40, 41]), (20, [57, 58, 59, 60, 61, 62, 63, 64, 65, 66, 67, 68, 69, 70, 71, 41]), (21, [59, 60, 63, 64, 67, 68, 71, 41]), (22, [33]), (23, [78, 79, 80, 81, 82, 83]), (24, [87, 88, 89, 83])],
  [(13, [24]), (14, [28, 29, 30]), (17, [33]), (22, [33]), (23, [78, 79, 80, 81, 82, 83]), (24, [87, 88, 89, 83])],
  [(5, [7, 8, 9]), (6, [12, 13]), (10, [15]), (19, [38, 39, 40, 41]), (20, [57, 58, 59, 60, 61, 62, 63, 64, 65, 66, 67, 68, 69, 70, 71, 41]), (21, [59, 60, 63, 64, 67, 68, 71, 41])],
  [(1, [23]), (2, [23]), (7, [23]), (9, [23]), (13, [23]), (15, [32]), (18, [23])],
  [(1, [24]), (2, [24]), (7, [24]), (9, [24]), (13, [24]), (15, [33]), (18, [24])],
  [(12, [139]), (13, [23]), (14, [25]), (17, [32]), (22, [32]), (23, [72, 73, 74]), (24, [140])],
  [(12, [141]), (14, [26]), (23, [75, 76, 77]), (24, [142])],
  [(3, [2]), (5, [143, 144, 145]), (6, [146, 147]), (10, [148]), (12, [149]), (14, [27]), (19, [150, 151, 152, 106]), (20, [153, 154, 155, 156, 157, 158, 159, 160, 161, 162, 163, 164, 165, 166, 167, 106]), (21, [155, 156, 159, 160, 163, 164, 167, 106]), (24, [168])],
  [(12, [169]), (13, [24]), (14, [28]), (17, [33]), (22, [33]), (23, [78, 79, 80]), (24, [170])],
  [(12, [171]), (14, [29]), (23, [81, 82, 83]), (24, [172])],
  [(5, [173, 174, 175]), (6, [176, 177]), (8, [3]), (10, [178]), (12, [179]), (14, [30]), (19, [180, 181, 182, 2]), (20, [183, 184, 185, 186, 187, 188, 189, 190, 191, 192, 193, 194, 195, 196, 197, 2]), (21, [185, 186, 189, 190, 193, 194, 197, 2]), (24, [198])],
  [(0, [1])],
  [(3, [2]), (5, [143, 144, 145]), (6, [146, 147]), (10, [148]), (12, [199]), (13, [23]), (17, [32]), (19, [150, 151, 152, 106]), (20, [153, 154, 155, 156, 157, 158, 159, 160, 161, 162, 163, 164, 165, 166, 167, 106]), (21, [155, 156, 159, 160, 163, 164, 167, 106]), (22, [32])],
  [(5, [173, 174, 175]), (6, [176, 177]), (8, [3]), (10, [178]), (12, [200]), (13, [24]), (17, [33]), (19, [180, 181, 182, 2]), (20, [183, 184, 185, 186, 187, 188, 189, 190, 191, 192, 193, 194, 195, 196, 197, 2]), (21, [185, 186, 189, 190, 193, 194, 197, 2]), (22, [33])],
  [(5, [4]), (6, [10]), (10, [14]), (20, [42, 43, 44, 45, 46, 47, 48, 49]), (21, [44, 45, 48, 49])],
  [(5, [5]), (6, [11]), (20, [50, 51, 52, 53, 54, 55, 56, 37]), (21, [52, 53, 56, 37])],
  [(5, [6])],
  [(3, [2]), (13, [95]), (14, [96, 97, 98]), (17, [99]), (22, [99]), (23, [101, 102, 103, 104, 105, 106]), (24, [107, 108, 109, 106])],
  [(5, [7]), (6, [12]), (10, [15]), (20, [57, 58, 59, 60, 61, 62, 63, 64]), (21, [59, 60, 63, 64])],
  [(5, [8]), (6, [13]), (20, [65, 66, 67, 68, 69, 70, 71, 41]), (21, [67, 68, 71, 41])],
  [(5, [9])],
  [(8, [3]), (13, [115]), (14, [116, 117, 118]), (17, [119]), (22, [119]), (23, [121, 122, 123, 124, 125, 2]), (24, [126, 127, 128, 2])],
  [(21, [44])],
  [(21, [45])],
  [(5, [201])],
  [(6, [10])],
  [(21, [48])],
  [(21, [49])],
  [(5, [202])],
  [(10, [14])],
  [(21, [52])],
  [(21, [53])],
  [(5, [203])],
  [(6, [11])],
  [(21, [56])],
  [(21, [37])],
  [(5, [204])],
  [(21, [59])],
  [(21, [60])],
  [(5, [205])],
  [(6, [12])],
  [(21, [63])],
  [(21, [64])],
  [(5, [206])],
  [(10, [15])],
  [(21, [67])],
  [(21, [68])],
  [(5, [207])],
  [(6, [13])],
  [(21, [71])]]

/-- What follows the alternatives (from number 70). -/
def follow1 : List (List (Nat × List Nat)) := [
  [(21, [41])],
  [(5, [208])],
  [(14, [209])],
  [(14, [74])],
  [(13, [23]), (17, [32]), (22, [32])],
  [(14, [210])],
  [(14, [77])],
  [(3, [2]), (5, [143, 144, 145]), (6, [146, 147]), (10, [148]), (19, [150, 151, 152, 106]), (20, [153, 154, 155, 156, 157, 158, 159, 160, 161, 162, 163, 164, 165, 166, 167, 106]), (21, [155, 156, 159, 160, 163, 164, 167, 106])],
  [(14, [211])],
  [(14, [80])],
  [(13, [24]), (17, [33]), (22, [33])],
  [(14, [212])],
  [(14, [83])],
  [(5, [173, 174, 175]), (6, [176, 177]), (8, [3]), (10, [178]), (19, [180, 181, 182, 2]), (20, [183, 184, 185, 186, 187, 188, 189, 190, 191, 192, 193, 194, 195, 196, 197, 2]), (21, [185, 186, 189, 190, 193, 194, 197, 2])],
  [(13, [23]), (14, [25]), (17, [32]), (22, [32]), (23, [72, 73, 74])],
  [(14, [26]), (23, [75, 76, 77])],
  [(14, [27])],
  [(13, [24]), (14, [28]), (17, [33]), (22, [33]), (23, [78, 79, 80])],
  [(14, [29]), (23, [81, 82, 83])],
  [(14, [30])],
  [(5, [4]), (6, [10]), (10, [14]), (19, [91]), (20, [42, 43, 44, 45, 46, 47, 48, 49]), (21, [44, 45, 48, 49])],
  [(5, [4]), (6, [10]), (10, [14]), (20, [42, 43, 44, 45, 46, 47, 48, 49]), (21, [44, 45, 48, 49])],
  [(5, [5]), (6, [11]), (19, [93]), (20, [50, 51, 52, 53, 54, 55, 56, 37]), (21, [52, 53, 56, 37])],
  [(5, [5]), (6, [11]), (20, [50, 51, 52, 53, 54, 55, 56, 37]), (21, [52, 53, 56, 37])],
  [(3, [2]), (5, [6]), (13, [95]), (14, [96, 97, 98]), (17, [99]), (19, [100]), (22, [99]), (23, [101, 102, 103, 104, 105, 106]), (24, [107, 108, 109, 106])],
  [(1, [95]), (2, [95]), (7, [95]), (9, [95]), (13, [95]), (15, [99]), (18, [95])],
  [(12, [213]), (13, [95]), (14, [96]), (17, [99]), (22, [99]), (23, [101, 102, 103]), (24, [214])],
  [(12, [215]), (14, [97]), (23, [104, 105, 106]), (24, [216])],
  [(3, [2]), (12, [217]), (14, [98]), (24, [218])],
  [(3, [2]), (12, [219]), (13, [95]), (17, [99]), (22, [99])],
  [(3, [2]), (5, [6]), (13, [95]), (14, [96, 97, 98]), (17, [99]), (22, [99]), (23, [101, 102, 103, 104, 105, 106]), (24, [107, 108, 109, 106])],
  [(14, [220])],
  [(14, [103])],
  [(13, [95]), (17, [99]), (22, [99])],
  [(14, [221])],
  [(14, [106])],
  [(3, [2])],
  [(13, [95]), (14, [96]), (17, [99]), (22, [99]), (23, [101, 102, 103])],
  [(14, [97]), (23, [104, 105, 106])],
  [(14, [98])],
  [(5, [7]), (6, [12]), (10, [15]), (19, [111]), (20, [57, 58, 59, 60, 61, 62, 63, 64]), (21, [59, 60, 63, 64])],
  [(5, [7]), (6, [12]), (10, [15]), (20, [57, 58, 59, 60, 61, 62, 63, 64]), (21, [59, 60, 63, 64])],
  [(5, [8]), (6, [13]), (19, [113]), (20, [65, 66, 67, 68, 69, 70, 71, 41]), (21, [67, 68, 71, 41])],
  [(5, [8]), (6, [13]), (20, [65, 66, 67, 68, 69, 70, 71, 41]), (21, [67, 68, 71, 41])],
  [(5, [9]), (8, [3]), (13, [115]), (14, [116, 117, 118]), (17, [119]), (19, [120]), (22, [119]), (23, [121, 122, 123, 124, 125, 2]), (24, [126, 127, 128, 2])],
  [(1, [115]), (2, [115]), (7, [115]), (9, [115]), (13, [115]), (15, [119]), (18, [115])],
  [(12, [222]), (13, [115]), (14, [116]), (17, [119]), (22, [119]), (23, [121, 122, 123]), (24, [223])],
  [(12, [224]), (14, [117]), (23, [124, 125, 2]), (24, [225])],
  [(8, [3]), (12, [226]), (14, [118]), (24, [227])],
  [(8, [3]), (12, [228]), (13, [115]), (17, [119]), (22, [119])],
  [(5, [9]), (8, [3]), (13, [115]), (14, [116, 117, 118]), (17, [119]), (22, [119]), (23, [121, 122, 123, 124, 125, 2]), (24, [126, 127, 128, 2])],
  [(14, [229])],
  [(14, [123])],
  [(13, [115]), (17, [119]), (22, [119])],
  [(14, [230])],
  [(14, [2])],
  [(13, [115]), (14, [116]), (17, [119]), (22, [119]), (23, [121, 122, 123])],
  [(14, [117]), (23, [124, 125, 2])],
  [(14, [118])],
  [(1, [129]), (2, [129]), (7, [129]), (9, [129]), (13, [129]), (15, [130]), (18, [129])],
  [(6, [10]), (10, [14]), (12, [231])],
  [(1, [131]), (2, [131]), (7, [131]), (9, [131]), (13, [131]), (15, [132]), (18, [131])],
  [(3, [2]), (6, [11]), (12, [232]), (13, [95]), (14, [96, 97, 98]), (17, [99]), (22, [99]), (23, [101, 102, 103, 104, 105, 106]), (24, [107, 108, 109, 106])],
  [(1, [133]), (2, [133]), (7, [133]), (9, [133]), (13, [133]), (15, [134]), (18, [133])],
  [(6, [12]), (10, [15]), (12, [233])],
  [(1, [135]), (2, [135]), (7, [135]), (9, [135]), (13, [135]), (15, [136]), (18, [135])],
  [(6, [13]), (8, [3]), (12, [234]), (13, [115]), (14, [116, 117, 118]), (17, [119]), (22, [119]), (23, [121, 122, 123, 124, 125, 2]), (24, [126, 127, 128, 2])],
  [(3, [2]), (12, [235]), (13, [95]), (14, [96, 97, 98]), (17, [99]), (19, [37]), (22, [99]), (23, [101, 102, 103, 104, 105, 106]), (24, [107, 108, 109, 106])],
  [(8, [3]), (12, [236]), (13, [115]), (14, [116, 117, 118]), (17, [119]), (19, [41]), (22, [119]), (23, [121, 122, 123, 124, 125, 2]), (24, [126, 127, 128, 2])],
  [(13, [23]), (14, [25]), (17, [32]), (22, [32]), (23, [72, 73, 74]), (24, [140])]]

/-- What follows the alternatives (from number 140). -/
def follow2 : List (List (Nat × List Nat)) := [
  [(13, [23]), (14, [25]), (17, [32]), (22, [32]), (23, [72, 73, 74])],
  [(14, [26]), (23, [75, 76, 77]), (24, [142])],
  [(14, [26]), (23, [75, 76, 77])],
  [(5, [143]), (6, [146]), (10, [148]), (12, [237]), (19, [238]), (20, [153, 154, 155, 156, 157, 158, 159, 160]), (21, [155, 156, 159, 160])],
  [(5, [144]), (6, [147]), (12, [239]), (19, [240]), (20, [161, 162, 163, 164, 165, 166, 167, 106]), (21, [163, 164, 167, 106])],
  [(3, [2]), (5, [145]), (12, [241]), (19, [242])],
  [(13, [243]), (17, [244]), (22, [244])],
  [(13, [245]), (17, [246]), (22, [246])],
  [(5, [247])],
  [(3, [2]), (5, [143, 144, 145]), (6, [146, 147]), (10, [148]), (14, [27]), (19, [150, 151, 152, 106]), (20, [153, 154, 155, 156, 157, 158, 159, 160, 161, 162, 163, 164, 165, 166, 167, 106]), (21, [155, 156, 159, 160, 163, 164, 167, 106]), (24, [168])],
  [(5, [143]), (6, [146]), (10, [148]), (20, [153, 154, 155, 156, 157, 158, 159, 160]), (21, [155, 156, 159, 160])],
  [(5, [144]), (6, [147]), (20, [161, 162, 163, 164, 165, 166, 167, 106]), (21, [163, 164, 167, 106])],
  [(5, [145])],
  [(21, [155])],
  [(21, [156])],
  [(5, [248])],
  [(6, [146])],
  [(21, [159])],
  [(21, [160])],
  [(5, [249])],
  [(10, [148])],
  [(21, [163])],
  [(21, [164])],
  [(5, [250])],
  [(6, [147])],
  [(21, [167])],
  [(21, [106])],
  [(5, [251])],
  [(3, [2]), (5, [143, 144, 145]), (6, [146, 147]), (10, [148]), (14, [27]), (19, [150, 151, 152, 106]), (20, [153, 154, 155, 156, 157, 158, 159, 160, 161, 162, 163, 164, 165, 166, 167, 106]), (21, [155, 156, 159, 160, 163, 164, 167, 106])],
  [(13, [24]), (14, [28]), (17, [33]), (22, [33]), (23, [78, 79, 80]), (24, [170])],
  [(13, [24]), (14, [28]), (17, [33]), (22, [33]), (23, [78, 79, 80])],
  [(14, [29]), (23, [81, 82, 83]), (24, [172])],
  [(14, [29]), (23, [81, 82, 83])],
  [(5, [173]), (6, [176]), (10, [178]), (12, [252]), (19, [253]), (20, [183, 184, 185, 186, 187, 188, 189, 190]), (21, [185, 186, 189, 190])],
  [(5, [174]), (6, [177]), (12, [254]), (19, [255]), (20, [191, 192, 193, 194, 195, 196, 197, 2]), (21, [193, 194, 197, 2])],
  [(5, [175]), (8, [3]), (12, [256]), (19, [257])],
  [(13, [258]), (17, [259]), (22, [259])],
  [(13, [260]), (17, [261]), (22, [261])],
  [(5, [262])],
  [(5, [173, 174, 175]), (6, [176, 177]), (8, [3]), (10, [178]), (14, [30]), (19, [180, 181, 182, 2]), (20, [183, 184, 185, 186, 187, 188, 189, 190, 191, 192, 193, 194, 195, 196, 197, 2]), (21, [185, 186, 189, 190, 193, 194, 197, 2]), (24, [198])],
  [(5, [173]), (6, [176]), (10, [178]), (20, [183, 184, 185, 186, 187, 188, 189, 190]), (21, [185, 186, 189, 190])],
  [(5, [174]), (6, [177]), (20, [191, 192, 193, 194, 195, 196, 197, 2]), (21, [193, 194, 197, 2])],
  [(5, [175])],
  [(21, [185])],
  [(21, [186])],
  [(5, [263])],
  [(6, [176])],
  [(21, [189])],
  [(21, [190])],
  [(5, [264])],
  [(10, [178])],
  [(21, [193])],
  [(21, [194])],
  [(5, [265])],
  [(6, [177])],
  [(21, [197])],
  [(21, [2])],
  [(5, [1])],
  [(5, [173, 174, 175]), (6, [176, 177]), (8, [3]), (10, [178]), (14, [30]), (19, [180, 181, 182, 2]), (20, [183, 184, 185, 186, 187, 188, 189, 190, 191, 192, 193, 194, 195, 196, 197, 2]), (21, [185, 186, 189, 190, 193, 194, 197, 2])],
  [(3, [2]), (5, [143, 144, 145]), (6, [146, 147]), (10, [148]), (13, [23]), (17, [32]), (19, [150, 151, 152, 106]), (20, [153, 154, 155, 156, 157, 158, 159, 160, 161, 162, 163, 164, 165, 166, 167, 106]), (21, [155, 156, 159, 160, 163, 164, 167, 106]), (22, [32])],
  [(5, [173, 174, 175]), (6, [176, 177]), (8, [3]), (10, [178]), (13, [24]), (17, [33]), (19, [180, 181, 182, 2]), (20, [183, 184, 185, 186, 187, 188, 189, 190, 191, 192, 193, 194, 195, 196, 197, 2]), (21, [185, 186, 189, 190, 193, 194, 197, 2]), (22, [33])],
  [(6, [10]), (12, [45])],
  [(10, [14]), (12, [49])],
  [(6, [11]), (12, [53])],
  [(3, [2]), (12, [37]), (13, [95]), (14, [96, 97, 98]), (17, [99]), (22, [99]), (23, [101, 102, 103, 104, 105, 106]), (24, [107, 108, 109, 106])],
  [(6, [12]), (12, [60])],
  [(10, [15]), (12, [64])],
  [(6, [13]), (12, [68])],
  [(8, [3]), (12, [41]), (13, [115]), (14, [116, 117, 118]), (17, [119]), (22, [119]), (23, [121, 122, 123, 124, 125, 2]), (24, [126, 127, 128, 2])],
  [(12, [74])]]

/-- What follows the alternatives (from number 210). -/
def follow3 : List (List (Nat × List Nat)) := [
  [(12, [77])],
  [(12, [80])],
  [(12, [83])],
  [(13, [95]), (14, [96]), (17, [99]), (22, [99]), (23, [101, 102, 103]), (24, [214])],
  [(13, [95]), (14, [96]), (17, [99]), (22, [99]), (23, [101, 102, 103])],
  [(14, [97]), (23, [104, 105, 106]), (24, [216])],
  [(14, [97]), (23, [104, 105, 106])],
  [(3, [2]), (14, [98]), (24, [218])],
  [(3, [2]), (14, [98])],
  [(3, [2]), (13, [95]), (17, [99]), (22, [99])],
  [(12, [103])],
  [(12, [106])],
  [(13, [115]), (14, [116]), (17, [119]), (22, [119]), (23, [121, 122, 123]), (24, [223])],
  [(13, [115]), (14, [116]), (17, [119]), (22, [119]), (23, [121, 122, 123])],
  [(14, [117]), (23, [124, 125, 2]), (24, [225])],
  [(14, [117]), (23, [124, 125, 2])],
  [(8, [3]), (14, [118]), (24, [227])],
  [(8, [3]), (14, [118])],
  [(8, [3]), (13, [115]), (17, [119]), (22, [119])],
  [(12, [123])],
  [(12, [2])],
  [(6, [10]), (10, [14])],
  [(3, [2]), (6, [11]), (13, [95]), (14, [96, 97, 98]), (17, [99]), (22, [99]), (23, [101, 102, 103, 104, 105, 106]), (24, [107, 108, 109, 106])],
  [(6, [12]), (10, [15])],
  [(6, [13]), (8, [3]), (13, [115]), (14, [116, 117, 118]), (17, [119]), (22, [119]), (23, [121, 122, 123, 124, 125, 2]), (24, [126, 127, 128, 2])],
  [(3, [2]), (13, [95]), (14, [96, 97, 98]), (17, [99]), (19, [37]), (22, [99]), (23, [101, 102, 103, 104, 105, 106]), (24, [107, 108, 109, 106])],
  [(8, [3]), (13, [115]), (14, [116, 117, 118]), (17, [119]), (19, [41]), (22, [119]), (23, [121, 122, 123, 124, 125, 2]), (24, [126, 127, 128, 2])],
  [(5, [143]), (6, [146]), (10, [148]), (19, [238]), (20, [153, 154, 155, 156, 157, 158, 159, 160]), (21, [155, 156, 159, 160])],
  [(5, [143]), (6, [146]), (10, [148]), (20, [153, 154, 155, 156, 157, 158, 159, 160]), (21, [155, 156, 159, 160])],
  [(5, [144]), (6, [147]), (19, [240]), (20, [161, 162, 163, 164, 165, 166, 167, 106]), (21, [163, 164, 167, 106])],
  [(5, [144]), (6, [147]), (20, [161, 162, 163, 164, 165, 166, 167, 106]), (21, [163, 164, 167, 106])],
  [(3, [2]), (5, [145]), (19, [242])],
  [(3, [2]), (5, [145])],
  [(1, [243]), (2, [243]), (7, [243]), (9, [243]), (13, [243]), (15, [244]), (18, [243])],
  [(6, [146]), (10, [148]), (12, [266])],
  [(1, [245]), (2, [245]), (7, [245]), (9, [245]), (13, [245]), (15, [246]), (18, [245])],
  [(3, [2]), (6, [147]), (12, [267])],
  [(3, [2]), (12, [268]), (19, [106])],
  [(6, [146]), (12, [156])],
  [(10, [148]), (12, [160])],
  [(6, [147]), (12, [164])],
  [(3, [2]), (12, [106])],
  [(5, [173]), (6, [176]), (10, [178]), (19, [253]), (20, [183, 184, 185, 186, 187, 188, 189, 190]), (21, [185, 186, 189, 190])],
  [(5, [173]), (6, [176]), (10, [178]), (20, [183, 184, 185, 186, 187, 188, 189, 190]), (21, [185, 186, 189, 190])],
  [(5, [174]), (6, [177]), (19, [255]), (20, [191, 192, 193, 194, 195, 196, 197, 2]), (21, [193, 194, 197, 2])],
  [(5, [174]), (6, [177]), (20, [191, 192, 193, 194, 195, 196, 197, 2]), (21, [193, 194, 197, 2])],
  [(5, [175]), (8, [3]), (19, [257])],
  [(5, [175]), (8, [3])],
  [(1, [258]), (2, [258]), (7, [258]), (9, [258]), (13, [258]), (15, [259]), (18, [258])],
  [(6, [176]), (10, [178]), (12, [269])],
  [(1, [260]), (2, [260]), (7, [260]), (9, [260]), (13, [260]), (15, [261]), (18, [260])],
  [(6, [177]), (8, [3]), (12, [270])],
  [(8, [3]), (12, [271]), (19, [2])],
  [(6, [176]), (12, [186])],
  [(10, [178]), (12, [190])],
  [(6, [177]), (12, [194])],
  [(6, [146]), (10, [148])],
  [(3, [2]), (6, [147])],
  [(3, [2]), (19, [106])],
  [(6, [176]), (10, [178])],
  [(6, [177]), (8, [3])],
  [(8, [3]), (19, [2])]]

/-- The alternatives of each state of `stagCert`. -/
def labels : List (List Nat) := [
  [0],
  [1],
  [2],
  [3],
  [4, 5, 6, 7, 8, 9],
  [10, 11, 12, 13],
  [14, 15],
  [16, 17, 18, 19, 20, 21, 22],
  [23, 24],
  [25, 26, 27, 28, 29, 30],
  [31],
  [32, 33],
  [34, 35, 36, 37, 38, 39, 40, 41],
  [37, 41, 42, 43, 44, 45, 46, 47, 48, 49, 50, 51, 52, 53, 54, 55, 56, 57, 58, 59, 60, 61, 62, 63, 64, 65, 66, 67, 68, 69, 70, 71],
  [37, 41, 44, 45, 48, 49, 52, 53, 56, 59, 60, 63, 64, 67, 68, 71],
  [32, 33],
  [72, 73, 74, 75, 76, 77, 78, 79, 80, 81, 82, 83],
  [77, 83, 84, 85, 86, 87, 88, 89],
  [2],
  [90, 92, 94, 110, 112, 114],
  [95, 115],
  [96, 97, 98, 116, 117, 118],
  [99, 119],
  [91, 93, 100, 111, 113, 120],
  [99, 119],
  [2, 101, 102, 103, 104, 105, 106, 121, 122, 123, 124, 125],
  [2, 106, 107, 108, 109, 126, 127, 128],
  [129, 131, 133, 135],
  [130, 132, 134, 136],
  [130, 132, 134, 136],
  [137, 138],
  [18, 19, 21, 22],
  [32, 33],
  [143, 144, 145, 173, 174, 175],
  [146, 147, 176, 177],
  [148, 178],
  [139, 141, 149, 169, 171, 179],
  [2, 106, 150, 151, 152, 180, 181, 182],
  [2, 106, 153, 154, 155, 156, 157, 158, 159, 160, 161, 162, 163, 164, 165, 166, 167, 183, 184, 185, 186, 187, 188, 189, 190, 191, 192, 193, 194, 195, 196, 197],
  [2, 106, 155, 156, 159, 160, 163, 164, 167, 185, 186, 189, 190, 193, 194, 197],
  [140, 142, 168, 170, 172, 198],
  [199, 200],
  [201, 202, 203, 204, 205, 206, 207, 208],
  [37, 41, 44, 45, 48, 49, 52, 53, 56, 59, 60, 63, 64, 67, 68, 71],
  [201, 202, 203, 204, 205, 206, 207, 208],
  [74, 77, 80, 83, 209, 210, 211, 212],
  [99, 119],
  [213, 215, 217, 222, 224, 226],
  [214, 216, 218, 223, 225, 227],
  [219, 228],
  [2, 103, 106, 123, 220, 221, 229, 230],
  [130, 132, 134, 136],
  [231, 232, 233, 234],
  [235, 236],
  [37, 41],
  [237, 239, 241, 252, 254, 256],
  [238, 240, 242, 253, 255, 257],
  [243, 245, 258, 260],
  [244, 246, 259, 261],
  [244, 246, 259, 261],
  [247, 262],
  [1, 248, 249, 250, 251, 263, 264, 265],
  [2, 106, 155, 156, 159, 160, 163, 164, 167, 185, 186, 189, 190, 193, 194, 197],
  [1, 248, 249, 250, 251, 263, 264, 265],
  [37, 41, 45, 49, 53, 60, 64, 68],
  [201, 202, 203, 204, 205, 206, 207, 208],
  [74, 77, 80, 83],
  [2, 103, 106, 123],
  [244, 246, 259, 261],
  [266, 267, 269, 270],
  [268, 271],
  [2, 106],
  [2, 106, 156, 160, 164, 186, 190, 194],
  [1, 248, 249, 250, 251, 263, 264, 265]]

def bisim : Bisim := ⟨atoms0 ++ atoms1 ++ atoms2 ++ atoms3 ++ atoms4 ++ atoms5 ++ atoms6, follow0 ++ follow1 ++ follow2 ++ follow3, labels⟩

theorem bisim_atoms : bisim.atomsOk = true := by decide +kernel

/-- The state has a result. -/
def certAcc (i : Nat) : Bool := Nat.beq (stagCert.cls i).exit 0 == false

theorem bisim_states : bisim.statesOk 74 (stagCert.step 25) certAcc = true := by decide +kernel

/-- The automaton of the certificate accepts the tenses. -/
theorem cert_recognises : Recognises (numDfa (stagCert.step 25) certAcc) tenseRE.lang :=
  bisim_recognises bisim_atoms bisim_states (by decide) rfl

end Jbo.Stag
