import Verif.GramSyms
/-!
# The words of every selma'o

Made by a script from `cmavotab.c`: the first two columns of the table.
-/

namespace Jbo.Gram
open Jbo.Terms

/-- The words of a selma'o (`cmavotab.c:15-1765`). -/
def wordsOf : Sel → List String
  | .A => [
    "a", "e", "o", "u", "ji"]
  | .BAI => [
    "bai", "bau", "ba'i", "be'i", "cau", "ca'i", "ci'e", "ci'o", "ci'u", "cu'u", "de'i", "di'o", "do'e",
    "du'i", "du'o", "fau", "fa'e", "fi'e", "gau", "ga'a", "ja'e", "ja'i", "ji'e", "ji'o", "ji'u", "kai",
    "ka'a", "ka'i", "ki'i", "ki'u", "koi", "ku'u", "la'u", "le'a", "li'e", "mau", "ma'e", "ma'i", "me'a",
    "me'e", "mu'i", "mu'u", "ni'i", "pa'a", "pa'u", "pi'o", "po'i", "pu'a", "pu'e", "rai", "ra'a", "ra'i",
    "ri'a", "ri'i", "sau", "si'u", "tai", "ta'i", "ti'i", "ti'u", "tu'i", "va'o", "va'u", "zau", "zu'e"]
  | .BE => [
    "be"]
  | .BEI => [
    "bei"]
  | .BEhO => [
    "be'o"]
  | .BIhE => [
    "bi'e"]
  | .BIhI => [
    "bi'i", "bi'o", "mi'i"]
  | .BO => [
    "bo"]
  | .BOI => [
    "boi"]
  | .BY => [
    "y'y", "by", "cy", "dy", "fy", "ga'e", "ge'o", "gy", "je'o", "jo'o", "jy", "ky", "lo'a", "ly", "my",
    "na'a", "ny", "py", "ru'o", "ry", "se'e", "sy", "to'a", "ty", "vy", "xy", "zy"]
  | .CAI => [
    "cai", "cu'i", "pei", "ru'e", "sai"]
  | .CAhA => [
    "ca'a", "ka'e", "nu'o", "pu'i"]
  | .CEI => [
    "cei"]
  | .CEhE => [
    "ce'e"]
  | .CO => [
    "co"]
  | .COI => [
    "be'e", "coi", "co'o", "fe'o", "fi'i", "je'e", "ju'i", "ke'o", "ki'e", "mi'e", "mu'o", "nu'e", "pe'u",
    "re'i", "ta'a", "vi'o"]
  | .CU => [
    "cu"]
  | .CUhE => [
    "cu'e", "nau"]
  | .DAhO => [
    "da'o"]
  | .DOI => [
    "doi"]
  | .DOhU => [
    "do'u"]
  | .FA => [
    "fa", "fai", "fe", "fi", "fi'a", "fo", "fu"]
  | .FAhA => [
    "be'a", "bu'u", "ca'u", "du'a", "fa'a", "ga'u", "ne'a", "ne'i", "ne'u", "ni'a", "pa'o", "re'o", "ri'u",
    "ru'u", "te'e", "ti'a", "to'o", "vu'a", "ze'o", "zo'a", "zo'i", "zu'a"]
  | .FEhE => [
    "fe'e"]
  | .FEhU => [
    "fe'u"]
  | .FIhO => [
    "fi'o"]
  | .FOI => [
    "foi"]
  | .FUhA => [
    "fu'a"]
  | .FUhE => [
    "fu'e"]
  | .FUhO => [
    "fu'o"]
  | .GA => [
    "ga", "ge", "ge'i", "go", "gu"]
  | .GAhO => [
    "ga'o", "ke'i"]
  | .GEhU => [
    "ge'u"]
  | .GI => [
    "gi"]
  | .GIhA => [
    "gi'a", "gi'e", "gi'i", "gi'o", "gi'u"]
  | .GOI => [
    "goi", "ne", "no'u", "pe", "po", "po'e", "po'u"]
  | .GOhA => [
    "bu'a", "bu'e", "bu'i", "co'e", "du", "go'a", "go'e", "go'i", "go'o", "go'u", "mo", "nei", "no'a"]
  | .GUhA => [
    "gu'a", "gu'e", "gu'i", "gu'o", "gu'u"]
  | .I => [
    "i"]
  | .JA => [
    "ja", "je", "je'i", "jo", "ju"]
  | .JAI => [
    "jai"]
  | .JOI => [
    "ce", "ce'o", "fa'u", "joi", "jo'e", "jo'u", "ju'e", "ku'a", "pi'u"]
  | .JOhI => [
    "jo'i"]
  | .KE => [
    "ke"]
  | .KEI => [
    "kei"]
  | .KEhE => [
    "ke'e"]
  | .KI => [
    "ki"]
  | .KOhA => [
    "ce'u", "da", "da'e", "da'u", "de", "dei", "de'e", "de'u", "di", "di'e", "di'u", "do", "do'i", "do'o",
    "fo'a", "fo'e", "fo'i", "fo'o", "fo'u", "ke'a", "ko", "ko'a", "ko'e", "ko'i", "ko'o", "ko'u", "ma", "ma'a",
    "mi", "mi'a", "mi'o", "ra", "ri", "ru", "ta", "ti", "tu", "vo'a", "vo'e", "vo'i", "vo'o", "vo'u", "zi'o",
    "zo'e", "zu'i"]
  | .KU => [
    "ku"]
  | .KUhE => [
    "ku'e"]
  | .KUhO => [
    "ku'o"]
  | .LA => [
    "la", "lai", "la'i"]
  | .LAU => [
    "ce'a", "lau", "tau", "zai"]
  | .LAhE => [
    "la'e", "lu'a", "lu'e", "lu'i", "lu'o", "tu'a", "vu'i"]
  | .LE => [
    "le", "lei", "le'e", "le'i", "lo", "loi", "lo'e", "lo'i"]
  | .LI => [
    "li", "me'o"]
  | .LIhU => [
    "li'u"]
  | .LOhO => [
    "lo'o"]
  | .LU => [
    "lu"]
  | .LUhU => [
    "lu'u"]
  | .MAI => [
    "mai", "mo'o"]
  | .MAhO => [
    "ma'o"]
  | .ME => [
    "me"]
  | .MEhU => [
    "me'u"]
  | .MOI => [
    "cu'o", "mei", "moi", "si'e", "va'e"]
  | .MOhE => [
    "mo'e"]
  | .MOhI => [
    "mo'i"]
  | .NA => [
    "ja'a", "na"]
  | .NAI => [
    "nai"]
  | .NAhE => [
    "je'a", "na'e", "no'e", "to'e"]
  | .NAhU => [
    "na'u"]
  | .NIhE => [
    "ni'e"]
  | .NIhO => [
    "ni'o", "no'i"]
  | .NOI => [
    "noi", "poi", "voi"]
  | .NU => [
    "du'u", "jei", "ka", "li'i", "mu'e", "ni", "nu", "pu'u", "si'o", "su'u", "za'i", "zu'o"]
  | .NUhA => [
    "nu'a"]
  | .NUhI => [
    "nu'i"]
  | .NUhU => [
    "nu'u"]
  | .PA => [
    "bi", "ce'i", "ci", "ci'i", "dau", "da'a", "du'e", "fei", "fi'u", "gai", "jau", "ji'i", "ka'o", "ki'o",
    "ma'u", "me'i", "mo'a", "mu", "ni'u", "no", "no'o", "pa", "pai", "pi", "pi'e", "rau", "ra'e", "re", "rei",
    "ro", "so", "so'a", "so'e", "so'i", "so'o", "so'u", "su'e", "su'o", "te'o", "tu'o", "vai", "vo", "xa",
    "xo", "za'u", "ze"]
  | .PEhE => [
    "pe'e"]
  | .PEhO => [
    "pe'o"]
  | .PU => [
    "ba", "ca", "pu"]
  | .RAhO => [
    "ra'o"]
  | .ROI => [
    "re'u", "roi"]
  | .SE => [
    "se", "te", "ve", "xe"]
  | .SEI => [
    "sei", "ti'o"]
  | .SEhU => [
    "se'u"]
  | .SOI => [
    "soi"]
  | .TAhE => [
    "di'i", "na'o", "ru'i", "ta'e"]
  | .TEI => [
    "tei"]
  | .TEhU => [
    "te'u"]
  | .TO => [
    "to", "to'i"]
  | .TOI => [
    "toi"]
  | .TUhE => [
    "tu'e"]
  | .TUhU => [
    "tu'u"]
  | .UI => [
    "ai", "au", "a'a", "a'e", "a'i", "a'o", "a'u", "ei", "e'a", "e'e", "e'i", "e'o", "e'u", "ia", "ie", "ii",
    "io", "iu", "i'a", "i'e", "i'i", "i'o", "i'u", "oi", "o'a", "o'e", "o'i", "o'o", "o'u", "ua", "ue", "ui",
    "uo", "uu", "u'a", "u'e", "u'i", "u'o", "u'u", "ba'a", "ba'u", "be'u", "bi'u", "bu'o", "ca'e", "dai",
    "da'i", "do'a", "fu'i", "ga'i", "ge'e", "ja'o", "je'u", "ji'a", "jo'a", "ju'a", "ju'o", "kau", "ka'u",
    "ke'u", "ki'a", "ku'i", "la'a", "le'o", "li'a", "li'o", "mi'u", "mu'a", "na'i", "pau", "pa'e", "pe'a",
    "pe'i", "po'a", "po'o", "ra'u", "re'e", "ri'e", "ro'a", "ro'e", "ro'i", "ro'o", "ro'u", "ru'a", "sa'a",
    "sa'e", "sa'u", "se'a", "se'i", "se'o", "si'a", "su'a", "ta'o", "ta'u", "ti'e", "to'u", "va'i", "vu'e",
    "xu", "za'a", "zo'o", "zu'u"]
  | .VA => [
    "va", "vi", "vu"]
  | .VAU => [
    "vau"]
  | .VEI => [
    "vei"]
  | .VEhA => [
    "ve'a", "ve'e", "ve'i", "ve'u"]
  | .VEhO => [
    "ve'o"]
  | .VIhA => [
    "vi'a", "vi'e", "vi'i", "vi'u"]
  | .VUhO => [
    "vu'o"]
  | .VUhU => [
    "cu'a", "de'o", "fa'i", "fe'a", "fe'i", "fu'u", "gei", "ge'a", "ju'u", "ne'o", "pa'i", "pi'a", "pi'i",
    "re'a", "ri'o", "sa'i", "sa'o", "si'i", "su'i", "te'a", "va'a", "vu'u"]
  | .XI => [
    "xi"]
  | .Y => [
    "y"]
  | .ZAhO => [
    "ba'o", "ca'o", "co'a", "co'i", "co'u", "de'a", "di'a", "mo'u", "pu'o", "xa'o", "za'o"]
  | .ZEhA => [
    "ze'a", "ze'e", "ze'i", "ze'u"]
  | .ZI => [
    "za", "zi", "zu"]
  | .ZIhE => [
    "zi'e"]
  | .ZOhU => [
    "zo'u"]
  | .BAhE => [
    "ba'e", "za'e"]

end Jbo.Gram
