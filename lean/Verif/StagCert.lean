import Verif.BlockEval
import Verif.DfaCertPipe
import Verif.StagSrc
/-!
# The automaton for tenses, computed

The NFA and the table automaton that belong to `stag_nfa.in`; the kernel checks both (see `BlockEval`
and `DfaCert`).
-/

namespace Jbo.Stag
open Jbo.Dfasyn
set_option maxRecDepth 100000

/-- The states of the main block of `stag_nfa.in`, in order. -/
def stagStates : List NState := [
  ⟨[(none, 2)], [], []⟩,
  ⟨[(none, 663)], [], []⟩,
  ⟨[(none, 3), (some 11, 3), (none, 7), (some 11, 7), (none, 335), (some 11, 335), (some 8, 662), (some 4, 662)], [], []⟩,
  ⟨[(none, 4), (some 16, 4)], [], []⟩,
  ⟨[(some 0, 5)], [], []⟩,
  ⟨[(none, 6), (some 12, 6)], [], []⟩,
  ⟨[(none, 662), (some 8, 662)], [], []⟩,
  ⟨[(none, 8), (none, 9)], [], []⟩,
  ⟨[(none, 333)], [], []⟩,
  ⟨[(some 11, 171), (none, 171), (some 11, 10), (none, 10)], [], []⟩,
  ⟨[(none, 12)], [], []⟩,
  ⟨[(none, 60)], [], []⟩,
  ⟨[(none, 13), (some 24, 13), (none, 40), (some 24, 40), (none, 53), (some 24, 53), (some 24, 59)], [], []⟩,
  ⟨[(none, 14), (none, 15)], [], []⟩,
  ⟨[(none, 19)], [], []⟩,
  ⟨[(some 14, 16)], [], []⟩,
  ⟨[(some 12, 17), (none, 17)], [], []⟩,
  ⟨[(some 24, 18), (none, 18), (some 24, 15), (none, 15)], [], []⟩,
  ⟨[(none, 14)], [], []⟩,
  ⟨[(none, 20), (none, 21)], [], []⟩,
  ⟨[(none, 26)], [], []⟩,
  ⟨[(some 23, 25), (some 23, 24), (some 23, 22)], [], []⟩,
  ⟨[(some 14, 23)], [], []⟩,
  ⟨[(some 12, 25)], [], []⟩,
  ⟨[(some 14, 25)], [], []⟩,
  ⟨[(none, 20)], [], []⟩,
  ⟨[(none, 28)], [], []⟩,
  ⟨[(none, 59)], [], []⟩,
  ⟨[(none, 30)], [], []⟩,
  ⟨[(none, 39), (none, 28)], [], []⟩,
  ⟨[(some 17, 31), (some 22, 32), (none, 34)], [], []⟩,
  ⟨[(none, 38), (some 12, 38)], [], []⟩,
  ⟨[(none, 38), (some 12, 38)], [], []⟩,
  ⟨[(none, 36)], [], []⟩,
  ⟨[(some 13, 35)], [], []⟩,
  ⟨[(some 18, 35), (some 7, 35), (some 9, 35), (some 1, 35), (some 2, 35), (some 13, 35), (none, 33)], [], []⟩,
  ⟨[(some 15, 37)], [], []⟩,
  ⟨[(none, 38), (some 12, 38)], [], []⟩,
  ⟨[(none, 29)], [], []⟩,
  ⟨[(none, 27)], [], []⟩,
  ⟨[(none, 41), (none, 42)], [], []⟩,
  ⟨[(none, 46)], [], []⟩,
  ⟨[(some 14, 43)], [], []⟩,
  ⟨[(some 12, 44), (none, 44)], [], []⟩,
  ⟨[(some 24, 45), (none, 45), (some 24, 42), (none, 42)], [], []⟩,
  ⟨[(none, 41)], [], []⟩,
  ⟨[(none, 48)], [], []⟩,
  ⟨[(none, 59)], [], []⟩,
  ⟨[(some 23, 52), (some 23, 51), (some 23, 49)], [], []⟩,
  ⟨[(some 14, 50)], [], []⟩,
  ⟨[(some 12, 52)], [], []⟩,
  ⟨[(some 14, 52)], [], []⟩,
  ⟨[(none, 47)], [], []⟩,
  ⟨[(none, 55)], [], []⟩,
  ⟨[(none, 59)], [], []⟩,
  ⟨[(some 14, 56)], [], []⟩,
  ⟨[(some 12, 57), (none, 57)], [], []⟩,
  ⟨[(some 24, 58), (none, 58), (some 24, 55), (none, 55)], [], []⟩,
  ⟨[(none, 54)], [], []⟩,
  ⟨[(none, 11)], [], []⟩,
  ⟨[(none, 62), (none, 61)], [], []⟩,
  ⟨[(none, 332)], [], []⟩,
  ⟨[(none, 63), (some 19, 63), (none, 117), (some 19, 117), (none, 164), (some 19, 164), (some 19, 170)], [], []⟩,
  ⟨[(none, 64), (none, 65)], [], []⟩,
  ⟨[(none, 69)], [], []⟩,
  ⟨[(some 5, 66)], [], []⟩,
  ⟨[(some 12, 67), (none, 67)], [], []⟩,
  ⟨[(some 19, 68), (none, 68), (some 19, 65), (none, 65)], [], []⟩,
  ⟨[(none, 64)], [], []⟩,
  ⟨[(none, 70), (none, 71)], [], []⟩,
  ⟨[(none, 110)], [], []⟩,
  ⟨[(none, 99), (none, 73), (none, 72)], [], []⟩,
  ⟨[(none, 83)], [], []⟩,
  ⟨[(some 20, 74), (some 20, 77), (some 20, 78), (some 20, 82), (some 21, 80), (some 21, 82)], [], []⟩,
  ⟨[(some 21, 75)], [], []⟩,
  ⟨[(some 5, 76)], [], []⟩,
  ⟨[(none, 82), (some 12, 82)], [], []⟩,
  ⟨[(some 21, 82)], [], []⟩,
  ⟨[(some 5, 79)], [], []⟩,
  ⟨[(none, 82), (some 12, 82)], [], []⟩,
  ⟨[(some 5, 81)], [], []⟩,
  ⟨[(none, 82), (some 12, 82)], [], []⟩,
  ⟨[(none, 72)], [], []⟩,
  ⟨[(none, 85)], [], []⟩,
  ⟨[(none, 109)], [], []⟩,
  ⟨[(some 6, 86)], [], []⟩,
  ⟨[(none, 88)], [], []⟩,
  ⟨[(none, 85), (none, 97)], [], []⟩,
  ⟨[(none, 92), (some 22, 90), (some 17, 89)], [], []⟩,
  ⟨[(some 12, 96), (none, 96)], [], []⟩,
  ⟨[(some 12, 96), (none, 96)], [], []⟩,
  ⟨[(none, 94)], [], []⟩,
  ⟨[(some 13, 93)], [], []⟩,
  ⟨[(none, 91), (some 13, 93), (some 2, 93), (some 1, 93), (some 9, 93), (some 7, 93), (some 18, 93)], [], []⟩,
  ⟨[(some 15, 95)], [], []⟩,
  ⟨[(some 12, 96), (none, 96)], [], []⟩,
  ⟨[(none, 87)], [], []⟩,
  ⟨[(none, 84)], [], []⟩,
  ⟨[(none, 109)], [], []⟩,
  ⟨[(some 20, 100), (some 20, 103), (some 20, 104), (some 20, 108), (some 21, 106), (some 21, 108)], [], []⟩,
  ⟨[(some 21, 101)], [], []⟩,
  ⟨[(some 5, 102)], [], []⟩,
  ⟨[(none, 108), (some 12, 108)], [], []⟩,
  ⟨[(some 21, 108)], [], []⟩,
  ⟨[(some 5, 105)], [], []⟩,
  ⟨[(none, 108), (some 12, 108)], [], []⟩,
  ⟨[(some 5, 107)], [], []⟩,
  ⟨[(none, 108), (some 12, 108)], [], []⟩,
  ⟨[(none, 98)], [], []⟩,
  ⟨[(none, 70)], [], []⟩,
  ⟨[(none, 112)], [], []⟩,
  ⟨[(none, 170)], [], []⟩,
  ⟨[(some 10, 113)], [], []⟩,
  ⟨[(some 5, 114)], [], []⟩,
  ⟨[(some 12, 115), (none, 115)], [], []⟩,
  ⟨[(some 19, 116), (none, 116)], [], []⟩,
  ⟨[(none, 111)], [], []⟩,
  ⟨[(none, 118), (none, 119)], [], []⟩,
  ⟨[(none, 123)], [], []⟩,
  ⟨[(some 5, 120)], [], []⟩,
  ⟨[(some 12, 121), (none, 121)], [], []⟩,
  ⟨[(some 19, 122), (none, 122), (some 19, 119), (none, 119)], [], []⟩,
  ⟨[(none, 118)], [], []⟩,
  ⟨[(none, 125)], [], []⟩,
  ⟨[(none, 170)], [], []⟩,
  ⟨[(none, 153), (none, 127), (none, 126)], [], []⟩,
  ⟨[(none, 137)], [], []⟩,
  ⟨[(some 20, 128), (some 20, 131), (some 20, 132), (some 20, 136), (some 21, 134), (some 21, 136)], [], []⟩,
  ⟨[(some 21, 129)], [], []⟩,
  ⟨[(some 5, 130)], [], []⟩,
  ⟨[(none, 136), (some 12, 136)], [], []⟩,
  ⟨[(some 21, 136)], [], []⟩,
  ⟨[(some 5, 133)], [], []⟩,
  ⟨[(none, 136), (some 12, 136)], [], []⟩,
  ⟨[(some 5, 135)], [], []⟩,
  ⟨[(none, 136), (some 12, 136)], [], []⟩,
  ⟨[(none, 126)], [], []⟩,
  ⟨[(none, 139)], [], []⟩,
  ⟨[(none, 163)], [], []⟩,
  ⟨[(some 6, 140)], [], []⟩,
  ⟨[(none, 142)], [], []⟩,
  ⟨[(none, 139), (none, 151)], [], []⟩,
  ⟨[(none, 146), (some 22, 144), (some 17, 143)], [], []⟩,
  ⟨[(some 12, 150), (none, 150)], [], []⟩,
  ⟨[(some 12, 150), (none, 150)], [], []⟩,
  ⟨[(none, 148)], [], []⟩,
  ⟨[(some 13, 147)], [], []⟩,
  ⟨[(none, 145), (some 13, 147), (some 2, 147), (some 1, 147), (some 9, 147), (some 7, 147), (some 18, 147)], [], []⟩,
  ⟨[(some 15, 149)], [], []⟩,
  ⟨[(some 12, 150), (none, 150)], [], []⟩,
  ⟨[(none, 141)], [], []⟩,
  ⟨[(none, 138)], [], []⟩,
  ⟨[(none, 163)], [], []⟩,
  ⟨[(some 20, 154), (some 20, 157), (some 20, 158), (some 20, 162), (some 21, 160), (some 21, 162)], [], []⟩,
  ⟨[(some 21, 155)], [], []⟩,
  ⟨[(some 5, 156)], [], []⟩,
  ⟨[(none, 162), (some 12, 162)], [], []⟩,
  ⟨[(some 21, 162)], [], []⟩,
  ⟨[(some 5, 159)], [], []⟩,
  ⟨[(none, 162), (some 12, 162)], [], []⟩,
  ⟨[(some 5, 161)], [], []⟩,
  ⟨[(none, 162), (some 12, 162)], [], []⟩,
  ⟨[(none, 152)], [], []⟩,
  ⟨[(none, 124)], [], []⟩,
  ⟨[(none, 166)], [], []⟩,
  ⟨[(none, 170)], [], []⟩,
  ⟨[(some 5, 167)], [], []⟩,
  ⟨[(some 12, 168), (none, 168)], [], []⟩,
  ⟨[(some 19, 169), (none, 169), (some 19, 166), (none, 166)], [], []⟩,
  ⟨[(none, 165)], [], []⟩,
  ⟨[(none, 61)], [], []⟩,
  ⟨[(none, 173)], [], []⟩,
  ⟨[(none, 282)], [], []⟩,
  ⟨[(none, 174), (some 19, 174), (none, 228), (some 19, 228), (none, 275), (some 19, 275), (some 19, 281)], [], []⟩,
  ⟨[(none, 175), (none, 176)], [], []⟩,
  ⟨[(none, 180)], [], []⟩,
  ⟨[(some 5, 177)], [], []⟩,
  ⟨[(some 12, 178), (none, 178)], [], []⟩,
  ⟨[(some 19, 179), (none, 179), (some 19, 176), (none, 176)], [], []⟩,
  ⟨[(none, 175)], [], []⟩,
  ⟨[(none, 181), (none, 182)], [], []⟩,
  ⟨[(none, 221)], [], []⟩,
  ⟨[(none, 210), (none, 184), (none, 183)], [], []⟩,
  ⟨[(none, 194)], [], []⟩,
  ⟨[(some 20, 185), (some 20, 188), (some 20, 189), (some 20, 193), (some 21, 191), (some 21, 193)], [], []⟩,
  ⟨[(some 21, 186)], [], []⟩,
  ⟨[(some 5, 187)], [], []⟩,
  ⟨[(none, 193), (some 12, 193)], [], []⟩,
  ⟨[(some 21, 193)], [], []⟩,
  ⟨[(some 5, 190)], [], []⟩,
  ⟨[(none, 193), (some 12, 193)], [], []⟩,
  ⟨[(some 5, 192)], [], []⟩,
  ⟨[(none, 193), (some 12, 193)], [], []⟩,
  ⟨[(none, 183)], [], []⟩,
  ⟨[(none, 196)], [], []⟩,
  ⟨[(none, 220)], [], []⟩,
  ⟨[(some 6, 197)], [], []⟩,
  ⟨[(none, 199)], [], []⟩,
  ⟨[(none, 196), (none, 208)], [], []⟩,
  ⟨[(none, 203), (some 22, 201), (some 17, 200)], [], []⟩,
  ⟨[(some 12, 207), (none, 207)], [], []⟩,
  ⟨[(some 12, 207), (none, 207)], [], []⟩,
  ⟨[(none, 205)], [], []⟩,
  ⟨[(some 13, 204)], [], []⟩,
  ⟨[(none, 202), (some 13, 204), (some 2, 204), (some 1, 204), (some 9, 204), (some 7, 204), (some 18, 204)], [], []⟩,
  ⟨[(some 15, 206)], [], []⟩,
  ⟨[(some 12, 207), (none, 207)], [], []⟩,
  ⟨[(none, 198)], [], []⟩,
  ⟨[(none, 195)], [], []⟩,
  ⟨[(none, 220)], [], []⟩,
  ⟨[(some 20, 211), (some 20, 214), (some 20, 215), (some 20, 219), (some 21, 217), (some 21, 219)], [], []⟩,
  ⟨[(some 21, 212)], [], []⟩,
  ⟨[(some 5, 213)], [], []⟩,
  ⟨[(none, 219), (some 12, 219)], [], []⟩,
  ⟨[(some 21, 219)], [], []⟩,
  ⟨[(some 5, 216)], [], []⟩,
  ⟨[(none, 219), (some 12, 219)], [], []⟩,
  ⟨[(some 5, 218)], [], []⟩,
  ⟨[(none, 219), (some 12, 219)], [], []⟩,
  ⟨[(none, 209)], [], []⟩,
  ⟨[(none, 181)], [], []⟩,
  ⟨[(none, 223)], [], []⟩,
  ⟨[(none, 281)], [], []⟩,
  ⟨[(some 10, 224)], [], []⟩,
  ⟨[(some 5, 225)], [], []⟩,
  ⟨[(some 12, 226), (none, 226)], [], []⟩,
  ⟨[(some 19, 227), (none, 227)], [], []⟩,
  ⟨[(none, 222)], [], []⟩,
  ⟨[(none, 229), (none, 230)], [], []⟩,
  ⟨[(none, 234)], [], []⟩,
  ⟨[(some 5, 231)], [], []⟩,
  ⟨[(some 12, 232), (none, 232)], [], []⟩,
  ⟨[(some 19, 233), (none, 233), (some 19, 230), (none, 230)], [], []⟩,
  ⟨[(none, 229)], [], []⟩,
  ⟨[(none, 236)], [], []⟩,
  ⟨[(none, 281)], [], []⟩,
  ⟨[(none, 264), (none, 238), (none, 237)], [], []⟩,
  ⟨[(none, 248)], [], []⟩,
  ⟨[(some 20, 239), (some 20, 242), (some 20, 243), (some 20, 247), (some 21, 245), (some 21, 247)], [], []⟩,
  ⟨[(some 21, 240)], [], []⟩,
  ⟨[(some 5, 241)], [], []⟩,
  ⟨[(none, 247), (some 12, 247)], [], []⟩,
  ⟨[(some 21, 247)], [], []⟩,
  ⟨[(some 5, 244)], [], []⟩,
  ⟨[(none, 247), (some 12, 247)], [], []⟩,
  ⟨[(some 5, 246)], [], []⟩,
  ⟨[(none, 247), (some 12, 247)], [], []⟩,
  ⟨[(none, 237)], [], []⟩,
  ⟨[(none, 250)], [], []⟩,
  ⟨[(none, 274)], [], []⟩,
  ⟨[(some 6, 251)], [], []⟩,
  ⟨[(none, 253)], [], []⟩,
  ⟨[(none, 250), (none, 262)], [], []⟩,
  ⟨[(none, 257), (some 22, 255), (some 17, 254)], [], []⟩,
  ⟨[(some 12, 261), (none, 261)], [], []⟩,
  ⟨[(some 12, 261), (none, 261)], [], []⟩,
  ⟨[(none, 259)], [], []⟩,
  ⟨[(some 13, 258)], [], []⟩,
  ⟨[(none, 256), (some 13, 258), (some 2, 258), (some 1, 258), (some 9, 258), (some 7, 258), (some 18, 258)], [], []⟩,
  ⟨[(some 15, 260)], [], []⟩,
  ⟨[(some 12, 261), (none, 261)], [], []⟩,
  ⟨[(none, 252)], [], []⟩,
  ⟨[(none, 249)], [], []⟩,
  ⟨[(none, 274)], [], []⟩,
  ⟨[(some 20, 265), (some 20, 268), (some 20, 269), (some 20, 273), (some 21, 271), (some 21, 273)], [], []⟩,
  ⟨[(some 21, 266)], [], []⟩,
  ⟨[(some 5, 267)], [], []⟩,
  ⟨[(none, 273), (some 12, 273)], [], []⟩,
  ⟨[(some 21, 273)], [], []⟩,
  ⟨[(some 5, 270)], [], []⟩,
  ⟨[(none, 273), (some 12, 273)], [], []⟩,
  ⟨[(some 5, 272)], [], []⟩,
  ⟨[(none, 273), (some 12, 273)], [], []⟩,
  ⟨[(none, 263)], [], []⟩,
  ⟨[(none, 235)], [], []⟩,
  ⟨[(none, 277)], [], []⟩,
  ⟨[(none, 281)], [], []⟩,
  ⟨[(some 5, 278)], [], []⟩,
  ⟨[(some 12, 279), (none, 279)], [], []⟩,
  ⟨[(some 19, 280), (none, 280), (some 19, 277), (none, 277)], [], []⟩,
  ⟨[(none, 276)], [], []⟩,
  ⟨[(none, 172)], [], []⟩,
  ⟨[(none, 284), (none, 283)], [], []⟩,
  ⟨[(none, 332)], [], []⟩,
  ⟨[(none, 285), (some 24, 285), (none, 312), (some 24, 312), (none, 325), (some 24, 325), (some 24, 331)], [], []⟩,
  ⟨[(none, 286), (none, 287)], [], []⟩,
  ⟨[(none, 291)], [], []⟩,
  ⟨[(some 14, 288)], [], []⟩,
  ⟨[(some 12, 289), (none, 289)], [], []⟩,
  ⟨[(some 24, 290), (none, 290), (some 24, 287), (none, 287)], [], []⟩,
  ⟨[(none, 286)], [], []⟩,
  ⟨[(none, 292), (none, 293)], [], []⟩,
  ⟨[(none, 298)], [], []⟩,
  ⟨[(some 23, 297), (some 23, 296), (some 23, 294)], [], []⟩,
  ⟨[(some 14, 295)], [], []⟩,
  ⟨[(some 12, 297)], [], []⟩,
  ⟨[(some 14, 297)], [], []⟩,
  ⟨[(none, 292)], [], []⟩,
  ⟨[(none, 300)], [], []⟩,
  ⟨[(none, 331)], [], []⟩,
  ⟨[(none, 302)], [], []⟩,
  ⟨[(none, 311), (none, 300)], [], []⟩,
  ⟨[(some 17, 303), (some 22, 304), (none, 306)], [], []⟩,
  ⟨[(none, 310), (some 12, 310)], [], []⟩,
  ⟨[(none, 310), (some 12, 310)], [], []⟩,
  ⟨[(none, 308)], [], []⟩,
  ⟨[(some 13, 307)], [], []⟩,
  ⟨[(some 18, 307), (some 7, 307), (some 9, 307), (some 1, 307), (some 2, 307), (some 13, 307), (none, 305)], [], []⟩,
  ⟨[(some 15, 309)], [], []⟩,
  ⟨[(none, 310), (some 12, 310)], [], []⟩,
  ⟨[(none, 301)], [], []⟩,
  ⟨[(none, 299)], [], []⟩,
  ⟨[(none, 313), (none, 314)], [], []⟩,
  ⟨[(none, 318)], [], []⟩,
  ⟨[(some 14, 315)], [], []⟩,
  ⟨[(some 12, 316), (none, 316)], [], []⟩,
  ⟨[(some 24, 317), (none, 317), (some 24, 314), (none, 314)], [], []⟩,
  ⟨[(none, 313)], [], []⟩,
  ⟨[(none, 320)], [], []⟩,
  ⟨[(none, 331)], [], []⟩,
  ⟨[(some 23, 324), (some 23, 323), (some 23, 321)], [], []⟩,
  ⟨[(some 14, 322)], [], []⟩,
  ⟨[(some 12, 324)], [], []⟩,
  ⟨[(some 14, 324)], [], []⟩,
  ⟨[(none, 319)], [], []⟩,
  ⟨[(none, 327)], [], []⟩,
  ⟨[(none, 331)], [], []⟩,
  ⟨[(some 14, 328)], [], []⟩,
  ⟨[(some 12, 329), (none, 329)], [], []⟩,
  ⟨[(some 24, 330), (none, 330), (some 24, 327), (none, 327)], [], []⟩,
  ⟨[(none, 326)], [], []⟩,
  ⟨[(none, 283)], [], []⟩,
  ⟨[(none, 8)], [], []⟩,
  ⟨[(some 3, 334)], [], []⟩,
  ⟨[(none, 662), (some 8, 662)], [], []⟩,
  ⟨[(none, 337)], [], []⟩,
  ⟨[(none, 661)], [], []⟩,
  ⟨[(some 11, 499), (none, 499), (some 11, 338), (none, 338)], [], []⟩,
  ⟨[(none, 340)], [], []⟩,
  ⟨[(none, 388)], [], []⟩,
  ⟨[(none, 341), (some 24, 341), (none, 368), (some 24, 368), (none, 381), (some 24, 381), (some 24, 387)], [], []⟩,
  ⟨[(none, 342), (none, 343)], [], []⟩,
  ⟨[(none, 347)], [], []⟩,
  ⟨[(some 14, 344)], [], []⟩,
  ⟨[(some 12, 345), (none, 345)], [], []⟩,
  ⟨[(some 24, 346), (none, 346), (some 24, 343), (none, 343)], [], []⟩,
  ⟨[(none, 342)], [], []⟩,
  ⟨[(none, 348), (none, 349)], [], []⟩,
  ⟨[(none, 354)], [], []⟩,
  ⟨[(some 23, 353), (some 23, 352), (some 23, 350)], [], []⟩,
  ⟨[(some 14, 351)], [], []⟩,
  ⟨[(some 12, 353)], [], []⟩,
  ⟨[(some 14, 353)], [], []⟩,
  ⟨[(none, 348)], [], []⟩,
  ⟨[(none, 356)], [], []⟩,
  ⟨[(none, 387)], [], []⟩,
  ⟨[(none, 358)], [], []⟩,
  ⟨[(none, 367), (none, 356)], [], []⟩,
  ⟨[(some 17, 359), (some 22, 360), (none, 362)], [], []⟩,
  ⟨[(none, 366), (some 12, 366)], [], []⟩,
  ⟨[(none, 366), (some 12, 366)], [], []⟩,
  ⟨[(none, 364)], [], []⟩,
  ⟨[(some 13, 363)], [], []⟩,
  ⟨[(some 18, 363), (some 7, 363), (some 9, 363), (some 1, 363), (some 2, 363), (some 13, 363), (none, 361)], [], []⟩,
  ⟨[(some 15, 365)], [], []⟩,
  ⟨[(none, 366), (some 12, 366)], [], []⟩,
  ⟨[(none, 357)], [], []⟩,
  ⟨[(none, 355)], [], []⟩,
  ⟨[(none, 369), (none, 370)], [], []⟩,
  ⟨[(none, 374)], [], []⟩,
  ⟨[(some 14, 371)], [], []⟩,
  ⟨[(some 12, 372), (none, 372)], [], []⟩,
  ⟨[(some 24, 373), (none, 373), (some 24, 370), (none, 370)], [], []⟩,
  ⟨[(none, 369)], [], []⟩,
  ⟨[(none, 376)], [], []⟩,
  ⟨[(none, 387)], [], []⟩,
  ⟨[(some 23, 380), (some 23, 379), (some 23, 377)], [], []⟩,
  ⟨[(some 14, 378)], [], []⟩,
  ⟨[(some 12, 380)], [], []⟩,
  ⟨[(some 14, 380)], [], []⟩,
  ⟨[(none, 375)], [], []⟩,
  ⟨[(none, 383)], [], []⟩,
  ⟨[(none, 387)], [], []⟩,
  ⟨[(some 14, 384)], [], []⟩,
  ⟨[(some 12, 385), (none, 385)], [], []⟩,
  ⟨[(some 24, 386), (none, 386), (some 24, 383), (none, 383)], [], []⟩,
  ⟨[(none, 382)], [], []⟩,
  ⟨[(none, 339)], [], []⟩,
  ⟨[(none, 390), (none, 389)], [], []⟩,
  ⟨[(none, 660)], [], []⟩,
  ⟨[(none, 391), (some 19, 391), (none, 445), (some 19, 445), (none, 492), (some 19, 492), (some 19, 498)], [], []⟩,
  ⟨[(none, 392), (none, 393)], [], []⟩,
  ⟨[(none, 397)], [], []⟩,
  ⟨[(some 5, 394)], [], []⟩,
  ⟨[(some 12, 395), (none, 395)], [], []⟩,
  ⟨[(some 19, 396), (none, 396), (some 19, 393), (none, 393)], [], []⟩,
  ⟨[(none, 392)], [], []⟩,
  ⟨[(none, 398), (none, 399)], [], []⟩,
  ⟨[(none, 438)], [], []⟩,
  ⟨[(none, 427), (none, 401), (none, 400)], [], []⟩,
  ⟨[(none, 411)], [], []⟩,
  ⟨[(some 20, 402), (some 20, 405), (some 20, 406), (some 20, 410), (some 21, 408), (some 21, 410)], [], []⟩,
  ⟨[(some 21, 403)], [], []⟩,
  ⟨[(some 5, 404)], [], []⟩,
  ⟨[(none, 410), (some 12, 410)], [], []⟩,
  ⟨[(some 21, 410)], [], []⟩,
  ⟨[(some 5, 407)], [], []⟩,
  ⟨[(none, 410), (some 12, 410)], [], []⟩,
  ⟨[(some 5, 409)], [], []⟩,
  ⟨[(none, 410), (some 12, 410)], [], []⟩,
  ⟨[(none, 400)], [], []⟩,
  ⟨[(none, 413)], [], []⟩,
  ⟨[(none, 437)], [], []⟩,
  ⟨[(some 6, 414)], [], []⟩,
  ⟨[(none, 416)], [], []⟩,
  ⟨[(none, 413), (none, 425)], [], []⟩,
  ⟨[(none, 420), (some 22, 418), (some 17, 417)], [], []⟩,
  ⟨[(some 12, 424), (none, 424)], [], []⟩,
  ⟨[(some 12, 424), (none, 424)], [], []⟩,
  ⟨[(none, 422)], [], []⟩,
  ⟨[(some 13, 421)], [], []⟩,
  ⟨[(none, 419), (some 13, 421), (some 2, 421), (some 1, 421), (some 9, 421), (some 7, 421), (some 18, 421)], [], []⟩,
  ⟨[(some 15, 423)], [], []⟩,
  ⟨[(some 12, 424), (none, 424)], [], []⟩,
  ⟨[(none, 415)], [], []⟩,
  ⟨[(none, 412)], [], []⟩,
  ⟨[(none, 437)], [], []⟩,
  ⟨[(some 20, 428), (some 20, 431), (some 20, 432), (some 20, 436), (some 21, 434), (some 21, 436)], [], []⟩,
  ⟨[(some 21, 429)], [], []⟩,
  ⟨[(some 5, 430)], [], []⟩,
  ⟨[(none, 436), (some 12, 436)], [], []⟩,
  ⟨[(some 21, 436)], [], []⟩,
  ⟨[(some 5, 433)], [], []⟩,
  ⟨[(none, 436), (some 12, 436)], [], []⟩,
  ⟨[(some 5, 435)], [], []⟩,
  ⟨[(none, 436), (some 12, 436)], [], []⟩,
  ⟨[(none, 426)], [], []⟩,
  ⟨[(none, 398)], [], []⟩,
  ⟨[(none, 440)], [], []⟩,
  ⟨[(none, 498)], [], []⟩,
  ⟨[(some 10, 441)], [], []⟩,
  ⟨[(some 5, 442)], [], []⟩,
  ⟨[(some 12, 443), (none, 443)], [], []⟩,
  ⟨[(some 19, 444), (none, 444)], [], []⟩,
  ⟨[(none, 439)], [], []⟩,
  ⟨[(none, 446), (none, 447)], [], []⟩,
  ⟨[(none, 451)], [], []⟩,
  ⟨[(some 5, 448)], [], []⟩,
  ⟨[(some 12, 449), (none, 449)], [], []⟩,
  ⟨[(some 19, 450), (none, 450), (some 19, 447), (none, 447)], [], []⟩,
  ⟨[(none, 446)], [], []⟩,
  ⟨[(none, 453)], [], []⟩,
  ⟨[(none, 498)], [], []⟩,
  ⟨[(none, 481), (none, 455), (none, 454)], [], []⟩,
  ⟨[(none, 465)], [], []⟩,
  ⟨[(some 20, 456), (some 20, 459), (some 20, 460), (some 20, 464), (some 21, 462), (some 21, 464)], [], []⟩,
  ⟨[(some 21, 457)], [], []⟩,
  ⟨[(some 5, 458)], [], []⟩,
  ⟨[(none, 464), (some 12, 464)], [], []⟩,
  ⟨[(some 21, 464)], [], []⟩,
  ⟨[(some 5, 461)], [], []⟩,
  ⟨[(none, 464), (some 12, 464)], [], []⟩,
  ⟨[(some 5, 463)], [], []⟩,
  ⟨[(none, 464), (some 12, 464)], [], []⟩,
  ⟨[(none, 454)], [], []⟩,
  ⟨[(none, 467)], [], []⟩,
  ⟨[(none, 491)], [], []⟩,
  ⟨[(some 6, 468)], [], []⟩,
  ⟨[(none, 470)], [], []⟩,
  ⟨[(none, 467), (none, 479)], [], []⟩,
  ⟨[(none, 474), (some 22, 472), (some 17, 471)], [], []⟩,
  ⟨[(some 12, 478), (none, 478)], [], []⟩,
  ⟨[(some 12, 478), (none, 478)], [], []⟩,
  ⟨[(none, 476)], [], []⟩,
  ⟨[(some 13, 475)], [], []⟩,
  ⟨[(none, 473), (some 13, 475), (some 2, 475), (some 1, 475), (some 9, 475), (some 7, 475), (some 18, 475)], [], []⟩,
  ⟨[(some 15, 477)], [], []⟩,
  ⟨[(some 12, 478), (none, 478)], [], []⟩,
  ⟨[(none, 469)], [], []⟩,
  ⟨[(none, 466)], [], []⟩,
  ⟨[(none, 491)], [], []⟩,
  ⟨[(some 20, 482), (some 20, 485), (some 20, 486), (some 20, 490), (some 21, 488), (some 21, 490)], [], []⟩,
  ⟨[(some 21, 483)], [], []⟩,
  ⟨[(some 5, 484)], [], []⟩,
  ⟨[(none, 490), (some 12, 490)], [], []⟩,
  ⟨[(some 21, 490)], [], []⟩,
  ⟨[(some 5, 487)], [], []⟩,
  ⟨[(none, 490), (some 12, 490)], [], []⟩,
  ⟨[(some 5, 489)], [], []⟩,
  ⟨[(none, 490), (some 12, 490)], [], []⟩,
  ⟨[(none, 480)], [], []⟩,
  ⟨[(none, 452)], [], []⟩,
  ⟨[(none, 494)], [], []⟩,
  ⟨[(none, 498)], [], []⟩,
  ⟨[(some 5, 495)], [], []⟩,
  ⟨[(some 12, 496), (none, 496)], [], []⟩,
  ⟨[(some 19, 497), (none, 497), (some 19, 494), (none, 494)], [], []⟩,
  ⟨[(none, 493)], [], []⟩,
  ⟨[(none, 389)], [], []⟩,
  ⟨[(none, 501)], [], []⟩,
  ⟨[(none, 610)], [], []⟩,
  ⟨[(none, 502), (some 19, 502), (none, 556), (some 19, 556), (none, 603), (some 19, 603), (some 19, 609)], [], []⟩,
  ⟨[(none, 503), (none, 504)], [], []⟩,
  ⟨[(none, 508)], [], []⟩,
  ⟨[(some 5, 505)], [], []⟩,
  ⟨[(some 12, 506), (none, 506)], [], []⟩,
  ⟨[(some 19, 507), (none, 507), (some 19, 504), (none, 504)], [], []⟩,
  ⟨[(none, 503)], [], []⟩,
  ⟨[(none, 509), (none, 510)], [], []⟩,
  ⟨[(none, 549)], [], []⟩,
  ⟨[(none, 538), (none, 512), (none, 511)], [], []⟩,
  ⟨[(none, 522)], [], []⟩,
  ⟨[(some 20, 513), (some 20, 516), (some 20, 517), (some 20, 521), (some 21, 519), (some 21, 521)], [], []⟩,
  ⟨[(some 21, 514)], [], []⟩,
  ⟨[(some 5, 515)], [], []⟩,
  ⟨[(none, 521), (some 12, 521)], [], []⟩,
  ⟨[(some 21, 521)], [], []⟩,
  ⟨[(some 5, 518)], [], []⟩,
  ⟨[(none, 521), (some 12, 521)], [], []⟩,
  ⟨[(some 5, 520)], [], []⟩,
  ⟨[(none, 521), (some 12, 521)], [], []⟩,
  ⟨[(none, 511)], [], []⟩,
  ⟨[(none, 524)], [], []⟩,
  ⟨[(none, 548)], [], []⟩,
  ⟨[(some 6, 525)], [], []⟩,
  ⟨[(none, 527)], [], []⟩,
  ⟨[(none, 524), (none, 536)], [], []⟩,
  ⟨[(none, 531), (some 22, 529), (some 17, 528)], [], []⟩,
  ⟨[(some 12, 535), (none, 535)], [], []⟩,
  ⟨[(some 12, 535), (none, 535)], [], []⟩,
  ⟨[(none, 533)], [], []⟩,
  ⟨[(some 13, 532)], [], []⟩,
  ⟨[(none, 530), (some 13, 532), (some 2, 532), (some 1, 532), (some 9, 532), (some 7, 532), (some 18, 532)], [], []⟩,
  ⟨[(some 15, 534)], [], []⟩,
  ⟨[(some 12, 535), (none, 535)], [], []⟩,
  ⟨[(none, 526)], [], []⟩,
  ⟨[(none, 523)], [], []⟩,
  ⟨[(none, 548)], [], []⟩,
  ⟨[(some 20, 539), (some 20, 542), (some 20, 543), (some 20, 547), (some 21, 545), (some 21, 547)], [], []⟩,
  ⟨[(some 21, 540)], [], []⟩,
  ⟨[(some 5, 541)], [], []⟩,
  ⟨[(none, 547), (some 12, 547)], [], []⟩,
  ⟨[(some 21, 547)], [], []⟩,
  ⟨[(some 5, 544)], [], []⟩,
  ⟨[(none, 547), (some 12, 547)], [], []⟩,
  ⟨[(some 5, 546)], [], []⟩,
  ⟨[(none, 547), (some 12, 547)], [], []⟩,
  ⟨[(none, 537)], [], []⟩,
  ⟨[(none, 509)], [], []⟩,
  ⟨[(none, 551)], [], []⟩,
  ⟨[(none, 609)], [], []⟩,
  ⟨[(some 10, 552)], [], []⟩,
  ⟨[(some 5, 553)], [], []⟩,
  ⟨[(some 12, 554), (none, 554)], [], []⟩,
  ⟨[(some 19, 555), (none, 555)], [], []⟩,
  ⟨[(none, 550)], [], []⟩,
  ⟨[(none, 557), (none, 558)], [], []⟩,
  ⟨[(none, 562)], [], []⟩,
  ⟨[(some 5, 559)], [], []⟩,
  ⟨[(some 12, 560), (none, 560)], [], []⟩,
  ⟨[(some 19, 561), (none, 561), (some 19, 558), (none, 558)], [], []⟩,
  ⟨[(none, 557)], [], []⟩,
  ⟨[(none, 564)], [], []⟩,
  ⟨[(none, 609)], [], []⟩,
  ⟨[(none, 592), (none, 566), (none, 565)], [], []⟩,
  ⟨[(none, 576)], [], []⟩,
  ⟨[(some 20, 567), (some 20, 570), (some 20, 571), (some 20, 575), (some 21, 573), (some 21, 575)], [], []⟩,
  ⟨[(some 21, 568)], [], []⟩,
  ⟨[(some 5, 569)], [], []⟩,
  ⟨[(none, 575), (some 12, 575)], [], []⟩,
  ⟨[(some 21, 575)], [], []⟩,
  ⟨[(some 5, 572)], [], []⟩,
  ⟨[(none, 575), (some 12, 575)], [], []⟩,
  ⟨[(some 5, 574)], [], []⟩,
  ⟨[(none, 575), (some 12, 575)], [], []⟩,
  ⟨[(none, 565)], [], []⟩,
  ⟨[(none, 578)], [], []⟩,
  ⟨[(none, 602)], [], []⟩,
  ⟨[(some 6, 579)], [], []⟩,
  ⟨[(none, 581)], [], []⟩,
  ⟨[(none, 578), (none, 590)], [], []⟩,
  ⟨[(none, 585), (some 22, 583), (some 17, 582)], [], []⟩,
  ⟨[(some 12, 589), (none, 589)], [], []⟩,
  ⟨[(some 12, 589), (none, 589)], [], []⟩,
  ⟨[(none, 587)], [], []⟩,
  ⟨[(some 13, 586)], [], []⟩,
  ⟨[(none, 584), (some 13, 586), (some 2, 586), (some 1, 586), (some 9, 586), (some 7, 586), (some 18, 586)], [], []⟩,
  ⟨[(some 15, 588)], [], []⟩,
  ⟨[(some 12, 589), (none, 589)], [], []⟩,
  ⟨[(none, 580)], [], []⟩,
  ⟨[(none, 577)], [], []⟩,
  ⟨[(none, 602)], [], []⟩,
  ⟨[(some 20, 593), (some 20, 596), (some 20, 597), (some 20, 601), (some 21, 599), (some 21, 601)], [], []⟩,
  ⟨[(some 21, 594)], [], []⟩,
  ⟨[(some 5, 595)], [], []⟩,
  ⟨[(none, 601), (some 12, 601)], [], []⟩,
  ⟨[(some 21, 601)], [], []⟩,
  ⟨[(some 5, 598)], [], []⟩,
  ⟨[(none, 601), (some 12, 601)], [], []⟩,
  ⟨[(some 5, 600)], [], []⟩,
  ⟨[(none, 601), (some 12, 601)], [], []⟩,
  ⟨[(none, 591)], [], []⟩,
  ⟨[(none, 563)], [], []⟩,
  ⟨[(none, 605)], [], []⟩,
  ⟨[(none, 609)], [], []⟩,
  ⟨[(some 5, 606)], [], []⟩,
  ⟨[(some 12, 607), (none, 607)], [], []⟩,
  ⟨[(some 19, 608), (none, 608), (some 19, 605), (none, 605)], [], []⟩,
  ⟨[(none, 604)], [], []⟩,
  ⟨[(none, 500)], [], []⟩,
  ⟨[(none, 612), (none, 611)], [], []⟩,
  ⟨[(none, 660)], [], []⟩,
  ⟨[(none, 613), (some 24, 613), (none, 640), (some 24, 640), (none, 653), (some 24, 653), (some 24, 659)], [], []⟩,
  ⟨[(none, 614), (none, 615)], [], []⟩,
  ⟨[(none, 619)], [], []⟩,
  ⟨[(some 14, 616)], [], []⟩,
  ⟨[(some 12, 617), (none, 617)], [], []⟩,
  ⟨[(some 24, 618), (none, 618), (some 24, 615), (none, 615)], [], []⟩,
  ⟨[(none, 614)], [], []⟩,
  ⟨[(none, 620), (none, 621)], [], []⟩,
  ⟨[(none, 626)], [], []⟩,
  ⟨[(some 23, 625), (some 23, 624), (some 23, 622)], [], []⟩,
  ⟨[(some 14, 623)], [], []⟩,
  ⟨[(some 12, 625)], [], []⟩,
  ⟨[(some 14, 625)], [], []⟩,
  ⟨[(none, 620)], [], []⟩,
  ⟨[(none, 628)], [], []⟩,
  ⟨[(none, 659)], [], []⟩,
  ⟨[(none, 630)], [], []⟩,
  ⟨[(none, 639), (none, 628)], [], []⟩,
  ⟨[(some 17, 631), (some 22, 632), (none, 634)], [], []⟩,
  ⟨[(none, 638), (some 12, 638)], [], []⟩,
  ⟨[(none, 638), (some 12, 638)], [], []⟩,
  ⟨[(none, 636)], [], []⟩,
  ⟨[(some 13, 635)], [], []⟩,
  ⟨[(some 18, 635), (some 7, 635), (some 9, 635), (some 1, 635), (some 2, 635), (some 13, 635), (none, 633)], [], []⟩,
  ⟨[(some 15, 637)], [], []⟩,
  ⟨[(none, 638), (some 12, 638)], [], []⟩,
  ⟨[(none, 629)], [], []⟩,
  ⟨[(none, 627)], [], []⟩,
  ⟨[(none, 641), (none, 642)], [], []⟩,
  ⟨[(none, 646)], [], []⟩,
  ⟨[(some 14, 643)], [], []⟩,
  ⟨[(some 12, 644), (none, 644)], [], []⟩,
  ⟨[(some 24, 645), (none, 645), (some 24, 642), (none, 642)], [], []⟩,
  ⟨[(none, 641)], [], []⟩,
  ⟨[(none, 648)], [], []⟩,
  ⟨[(none, 659)], [], []⟩,
  ⟨[(some 23, 652), (some 23, 651), (some 23, 649)], [], []⟩,
  ⟨[(some 14, 650)], [], []⟩,
  ⟨[(some 12, 652)], [], []⟩,
  ⟨[(some 14, 652)], [], []⟩,
  ⟨[(none, 647)], [], []⟩,
  ⟨[(none, 655)], [], []⟩,
  ⟨[(none, 659)], [], []⟩,
  ⟨[(some 14, 656)], [], []⟩,
  ⟨[(some 12, 657), (none, 657)], [], []⟩,
  ⟨[(some 24, 658), (none, 658), (some 24, 655), (none, 655)], [], []⟩,
  ⟨[(none, 654)], [], []⟩,
  ⟨[(none, 611)], [], []⟩,
  ⟨[(none, 336)], [], []⟩,
  ⟨[(none, 662), (some 8, 662)], [], []⟩,
  ⟨[(none, 1)], [], []⟩,
  ⟨[], [c!"SUCCESS"], []⟩]

/-- The NFA that `dfasyn` reads from `stag_nfa.in`. -/
def stagNfa : Nfa := ⟨stagStates, 25, stagSource.exit, stagSource.attr⟩

theorem stag_compiles : stagSource.compile = some (stagNfa, 0) :=
  compile_of_check (src := stagSource) (l := stagStates) (by decide +kernel)

/-- The certificate. -/
def stagCert : Cert where
  W := 7
  exitNames := [
    c!"SUCCESS"]
  attrNames := [
]
  classes := [
    ⟨0x0, 0x0, 0, 0⟩, ⟨0x1, 0x0, 1, 0⟩]
  nodes := [
    ⟨[0, 2, 3, 4, 7, 8, 9, 10, 12, 13, 14, 15, 19, 20, 21, 26, 28, 30, 34, 40, 41, 42, 46, 48, 53, 55, 171, 173, 174, 175, 176, 180, 181, 182, 183, 184, 194, 196, 210, 221, 223, 228, 229, 230, 234, 236, 237, 238, 248, 250, 264, 275, 277, 333, 335, 337, 338, 340, 341, 342, 343, 347, 348, 349, 354, 356, 358, 362, 368, 369, 370, 374, 376, 381, 383, 499, 501, 502, 503, 504, 508, 509, 510, 511, 512, 522, 524, 538, 549, 551, 556, 557, 558, 562, 564, 565, 566, 576, 578, 592, 603, 605], 0x12224078e1a0060b0028480101c00400182840600002, 0⟩,
    ⟨[1, 5, 6, 662, 663], 0x13000000400000000000000, 1⟩,
    ⟨[1, 334, 662, 663], 0x400000000000000, 1⟩,
    ⟨[1, 662, 663], 0x0, 1⟩,
    ⟨[1, 8, 172, 175, 176, 177, 178, 179, 180, 181, 182, 183, 184, 194, 196, 210, 221, 223, 229, 230, 231, 232, 233, 234, 236, 237, 238, 248, 250, 264, 276, 277, 278, 279, 280, 281, 282, 283, 284, 285, 286, 287, 291, 292, 293, 298, 300, 302, 306, 312, 313, 314, 318, 320, 325, 327, 332, 333, 336, 500, 503, 504, 505, 506, 507, 508, 509, 510, 511, 512, 522, 524, 538, 549, 551, 557, 558, 559, 560, 561, 562, 564, 565, 566, 576, 578, 592, 604, 605, 606, 607, 608, 609, 610, 611, 612, 613, 614, 615, 619, 620, 621, 626, 628, 630, 634, 640, 641, 642, 646, 648, 653, 655, 660, 661, 662, 663], 0x1b346478e3000b800058a94001c00400182800600000, 1⟩,
    ⟨[197, 199, 203, 251, 253, 257, 525, 527, 531, 579, 581, 585], 0x780000000e800000e00000000000000000000000, 0⟩,
    ⟨[224, 552], 0xf800000000, 0⟩,
    ⟨[3, 4, 7, 8, 9, 10, 12, 13, 14, 15, 19, 20, 21, 26, 28, 30, 34, 40, 41, 42, 46, 48, 53, 55, 171, 173, 174, 175, 176, 180, 181, 182, 183, 184, 194, 196, 210, 221, 223, 228, 229, 230, 234, 236, 237, 238, 248, 250, 264, 275, 277, 333, 335, 337, 338, 340, 341, 342, 343, 347, 348, 349, 354, 356, 358, 362, 368, 369, 370, 374, 376, 381, 383, 499, 501, 502, 503, 504, 508, 509, 510, 511, 512, 522, 524, 538, 549, 551, 556, 557, 558, 562, 564, 565, 566, 576, 578, 592, 603, 605], 0x12224078e1a0060b0028480401c00000182800600002, 0⟩,
    ⟨[33, 35, 36, 361, 363, 364], 0x240004200480000048012000000024480, 0⟩,
    ⟨[1, 8, 11, 14, 15, 16, 17, 18, 19, 20, 21, 26, 28, 30, 34, 41, 42, 43, 44, 45, 46, 48, 54, 55, 56, 57, 58, 59, 60, 61, 62, 63, 64, 65, 69, 70, 71, 72, 73, 83, 85, 99, 110, 112, 117, 118, 119, 123, 125, 126, 127, 137, 139, 153, 164, 166, 332, 333, 336, 339, 342, 343, 344, 345, 346, 347, 348, 349, 354, 356, 358, 362, 369, 370, 371, 372, 373, 374, 376, 382, 383, 384, 385, 386, 387, 388, 389, 390, 391, 392, 393, 397, 398, 399, 400, 401, 411, 413, 427, 438, 440, 445, 446, 447, 451, 453, 454, 455, 465, 467, 481, 492, 494, 660, 661, 662, 663], 0x2922414274c0060000284a50090004008d1000600000, 1⟩,
    ⟨[4], 0x2, 0⟩,
    ⟨[1, 8, 11, 27, 28, 29, 30, 31, 34, 38, 39, 59, 60, 61, 62, 63, 64, 65, 69, 70, 71, 72, 73, 83, 85, 99, 110, 112, 117, 118, 119, 123, 125, 126, 127, 137, 139, 153, 164, 166, 332, 333, 336, 339, 355, 356, 357, 358, 359, 362, 366, 367, 387, 388, 389, 390, 391, 392, 393, 397, 398, 399, 400, 401, 411, 413, 427, 438, 440, 445, 446, 447, 451, 453, 454, 455, 465, 467, 481, 492, 494, 660, 661, 662, 663], 0x414274c0060000004aa0090004008d1000600000, 1⟩,
    ⟨[1, 8, 172, 174, 175, 176, 180, 181, 182, 183, 184, 194, 196, 210, 221, 223, 228, 229, 230, 234, 236, 237, 238, 248, 250, 264, 275, 277, 281, 282, 283, 284, 285, 286, 287, 291, 292, 293, 298, 300, 302, 306, 312, 313, 314, 318, 320, 325, 327, 332, 333, 336, 500, 502, 503, 504, 508, 509, 510, 511, 512, 522, 524, 538, 549, 551, 556, 557, 558, 562, 564, 565, 566, 576, 578, 592, 603, 605, 609, 610, 611, 612, 613, 614, 615, 619, 620, 621, 626, 628, 630, 634, 640, 641, 642, 646, 648, 653, 655, 660, 661, 662, 663], 0x1b346478e0000b800058a80001c00400182800600000, 1⟩,
    ⟨[1, 8, 172, 181, 183, 185, 188, 189, 193, 194, 196, 209, 211, 214, 215, 219, 220, 221, 223, 235, 237, 239, 242, 243, 247, 248, 250, 263, 265, 268, 269, 273, 274, 281, 282, 283, 284, 285, 286, 287, 291, 292, 293, 298, 300, 302, 306, 312, 313, 314, 318, 320, 325, 327, 332, 333, 336, 500, 509, 511, 513, 516, 517, 521, 522, 524, 537, 539, 542, 543, 547, 548, 549, 551, 563, 565, 567, 570, 571, 575, 576, 578, 591, 593, 596, 597, 601, 602, 609, 610, 611, 612, 613, 614, 615, 619, 620, 621, 626, 628, 630, 634, 640, 641, 642, 646, 648, 653, 655, 660, 661, 662, 663], 0x1b34656000000b800058a80001c00400195800600000, 1⟩,
    ⟨[1, 8, 172, 181, 183, 191, 193, 194, 196, 209, 217, 219, 220, 221, 223, 235, 237, 245, 247, 248, 250, 263, 271, 273, 274, 281, 282, 283, 284, 285, 286, 287, 291, 292, 293, 298, 300, 302, 306, 312, 313, 314, 318, 320, 325, 327, 332, 333, 336, 500, 509, 511, 519, 521, 522, 524, 537, 545, 547, 548, 549, 551, 563, 565, 573, 575, 576, 578, 591, 599, 601, 602, 609, 610, 611, 612, 613, 614, 615, 619, 620, 621, 626, 628, 630, 634, 640, 641, 642, 646, 648, 653, 655, 660, 661, 662, 663], 0x1b34640000000b800058a80001c00400196800600000, 1⟩,
    ⟨[1, 8, 11, 27, 28, 29, 30, 32, 34, 38, 39, 59, 60, 61, 62, 63, 64, 65, 69, 70, 71, 72, 73, 83, 85, 99, 110, 112, 117, 118, 119, 123, 125, 126, 127, 137, 139, 153, 164, 166, 332, 333, 336, 339, 355, 356, 357, 358, 360, 362, 366, 367, 387, 388, 389, 390, 391, 392, 393, 397, 398, 399, 400, 401, 411, 413, 427, 438, 440, 445, 446, 447, 451, 453, 454, 455, 465, 467, 481, 492, 494, 660, 661, 662, 663], 0x414274c0060000004aa0090004008d1000600000, 1⟩,
    ⟨[1, 8, 11, 20, 22, 24, 25, 26, 28, 30, 34, 47, 49, 51, 52, 59, 60, 61, 62, 63, 64, 65, 69, 70, 71, 72, 73, 83, 85, 99, 110, 112, 117, 118, 119, 123, 125, 126, 127, 137, 139, 153, 164, 166, 332, 333, 336, 339, 348, 350, 352, 353, 354, 356, 358, 362, 375, 377, 379, 380, 387, 388, 389, 390, 391, 392, 393, 397, 398, 399, 400, 401, 411, 413, 427, 438, 440, 445, 446, 447, 451, 453, 454, 455, 465, 467, 481, 492, 494, 660, 661, 662, 663], 0x414274c0060000b84800090004008d1000600000, 1⟩,
    ⟨[1, 8, 11, 13, 14, 15, 19, 20, 21, 26, 28, 30, 34, 40, 41, 42, 46, 48, 53, 55, 59, 60, 61, 62, 63, 64, 65, 69, 70, 71, 72, 73, 83, 85, 99, 110, 112, 117, 118, 119, 123, 125, 126, 127, 137, 139, 153, 164, 166, 332, 333, 336, 339, 341, 342, 343, 347, 348, 349, 354, 356, 358, 362, 368, 369, 370, 374, 376, 381, 383, 387, 388, 389, 390, 391, 392, 393, 397, 398, 399, 400, 401, 411, 413, 427, 438, 440, 445, 446, 447, 451, 453, 454, 455, 465, 467, 481, 492, 494, 660, 661, 662, 663], 0x22414274c0060000284800090004008d1000600000, 1⟩,
    ⟨[1, 6, 662, 663], 0x400000000000000, 1⟩,
    ⟨[1, 8, 172, 175, 176, 178, 179, 180, 181, 182, 183, 184, 194, 196, 210, 221, 223, 229, 230, 232, 233, 234, 236, 237, 238, 248, 250, 264, 276, 277, 279, 280, 281, 282, 283, 284, 285, 286, 287, 291, 292, 293, 298, 300, 302, 306, 312, 313, 314, 318, 320, 325, 327, 332, 333, 336, 500, 503, 504, 506, 507, 508, 509, 510, 511, 512, 522, 524, 538, 549, 551, 557, 558, 560, 561, 562, 564, 565, 566, 576, 578, 592, 604, 605, 607, 608, 609, 610, 611, 612, 613, 614, 615, 619, 620, 621, 626, 628, 630, 634, 640, 641, 642, 646, 648, 653, 655, 660, 661, 662, 663], 0x1b346478e3000b800058a80001c00400182800600000, 1⟩,
    ⟨[305, 307, 308, 633, 635, 636], 0x540005e00a800000a802a000000054a80, 0⟩,
    ⟨[1, 8, 283, 286, 287, 288, 289, 290, 291, 292, 293, 298, 300, 302, 306, 313, 314, 315, 316, 317, 318, 320, 326, 327, 328, 329, 330, 331, 332, 333, 336, 611, 614, 615, 616, 617, 618, 619, 620, 621, 626, 628, 630, 634, 641, 642, 643, 644, 645, 646, 648, 654, 655, 656, 657, 658, 659, 660, 661, 662, 663], 0x3134640000000b800058ab0000000400000000600000, 1⟩,
    ⟨[1, 8, 283, 299, 300, 301, 302, 303, 306, 310, 311, 331, 332, 333, 336, 611, 627, 628, 629, 630, 631, 634, 638, 639, 659, 660, 661, 662, 663], 0x640000000b800000ab2000000400000000600000, 1⟩,
    ⟨[1, 8, 172, 175, 176, 179, 180, 181, 182, 183, 184, 194, 196, 210, 221, 223, 229, 230, 233, 234, 236, 237, 238, 248, 250, 264, 276, 277, 280, 281, 282, 283, 284, 285, 286, 287, 291, 292, 293, 298, 300, 302, 306, 312, 313, 314, 318, 320, 325, 327, 332, 333, 336, 500, 503, 504, 507, 508, 509, 510, 511, 512, 522, 524, 538, 549, 551, 557, 558, 561, 562, 564, 565, 566, 576, 578, 592, 604, 605, 608, 609, 610, 611, 612, 613, 614, 615, 619, 620, 621, 626, 628, 630, 634, 640, 641, 642, 646, 648, 653, 655, 660, 661, 662, 663], 0x1b346478e0000b800058a80001c00400182800600000, 1⟩,
    ⟨[1, 8, 283, 299, 300, 301, 302, 304, 306, 310, 311, 331, 332, 333, 336, 611, 627, 628, 629, 630, 632, 634, 638, 639, 659, 660, 661, 662, 663], 0x640000000b800000ab2000000400000000600000, 1⟩,
    ⟨[1, 8, 283, 292, 294, 296, 297, 298, 300, 302, 306, 319, 321, 323, 324, 331, 332, 333, 336, 611, 620, 622, 624, 625, 626, 628, 630, 634, 647, 649, 651, 652, 659, 660, 661, 662, 663], 0x640000000b8000cca80000000400000000600000, 1⟩,
    ⟨[1, 8, 283, 285, 286, 287, 291, 292, 293, 298, 300, 302, 306, 312, 313, 314, 318, 320, 325, 327, 331, 332, 333, 336, 611, 613, 614, 615, 619, 620, 621, 626, 628, 630, 634, 640, 641, 642, 646, 648, 653, 655, 659, 660, 661, 662, 663], 0x34640000000b800058a80000000400000000600000, 1⟩,
    ⟨[202, 204, 205, 256, 258, 259, 530, 532, 533, 584, 586, 587], 0x700006800e000000e0038000000070e00, 0⟩,
    ⟨[1, 8, 172, 181, 195, 196, 198, 200, 207, 208, 220, 221, 223, 235, 249, 250, 252, 254, 261, 262, 274, 281, 282, 283, 284, 285, 286, 287, 291, 292, 293, 298, 300, 302, 306, 312, 313, 314, 318, 320, 325, 327, 332, 333, 336, 500, 509, 523, 524, 526, 528, 535, 536, 548, 549, 551, 563, 577, 578, 580, 582, 589, 590, 602, 609, 610, 611, 612, 613, 614, 615, 619, 620, 621, 626, 628, 630, 634, 640, 641, 642, 646, 648, 653, 655, 660, 661, 662, 663], 0x1b34640000000b800058ab5001c00400180000600000, 1⟩,
    ⟨[1, 8, 172, 181, 195, 196, 198, 201, 207, 208, 220, 221, 223, 235, 249, 250, 252, 255, 261, 262, 274, 281, 282, 283, 284, 285, 286, 287, 291, 292, 293, 298, 300, 302, 306, 312, 313, 314, 318, 320, 325, 327, 332, 333, 336, 500, 509, 523, 524, 526, 529, 535, 536, 548, 549, 551, 563, 577, 578, 580, 583, 589, 590, 602, 609, 610, 611, 612, 613, 614, 615, 619, 620, 621, 626, 628, 630, 634, 640, 641, 642, 646, 648, 653, 655, 660, 661, 662, 663], 0x1b34640000000b800058ab5001c00400180000600000, 1⟩,
    ⟨[1, 8, 172, 222, 225, 226, 227, 281, 282, 283, 284, 285, 286, 287, 291, 292, 293, 298, 300, 302, 306, 312, 313, 314, 318, 320, 325, 327, 332, 333, 336, 500, 550, 553, 554, 555, 609, 610, 611, 612, 613, 614, 615, 619, 620, 621, 626, 628, 630, 634, 640, 641, 642, 646, 648, 653, 655, 660, 661, 662, 663], 0x1b34640006e00b800058ab6000000400000000600000, 1⟩,
    ⟨[10, 12, 13, 14, 15, 19, 20, 21, 26, 28, 30, 34, 40, 41, 42, 46, 48, 53, 55, 171, 173, 174, 175, 176, 180, 181, 182, 183, 184, 194, 196, 210, 221, 223, 228, 229, 230, 234, 236, 237, 238, 248, 250, 264, 275, 277, 338, 340, 341, 342, 343, 347, 348, 349, 354, 356, 358, 362, 368, 369, 370, 374, 376, 381, 383, 499, 501, 502, 503, 504, 508, 509, 510, 511, 512, 522, 524, 538, 549, 551, 556, 557, 558, 562, 564, 565, 566, 576, 578, 592, 603, 605], 0x12224078e1a006000028480001c00000182800000000, 0⟩,
    ⟨[1, 8, 11, 27, 28, 29, 30, 34, 37, 38, 39, 59, 60, 61, 62, 63, 64, 65, 69, 70, 71, 72, 73, 83, 85, 99, 110, 112, 117, 118, 119, 123, 125, 126, 127, 137, 139, 153, 164, 166, 332, 333, 336, 339, 355, 356, 357, 358, 362, 365, 366, 367, 387, 388, 389, 390, 391, 392, 393, 397, 398, 399, 400, 401, 411, 413, 427, 438, 440, 445, 446, 447, 451, 453, 454, 455, 465, 467, 481, 492, 494, 660, 661, 662, 663], 0x414274c0060000004aa0090004008d1000600000, 1⟩,
    ⟨[1, 8, 61, 64, 65, 66, 67, 68, 69, 70, 71, 72, 73, 83, 85, 99, 110, 112, 118, 119, 120, 121, 122, 123, 125, 126, 127, 137, 139, 153, 165, 166, 167, 168, 169, 170, 332, 333, 336, 389, 392, 393, 394, 395, 396, 397, 398, 399, 400, 401, 411, 413, 427, 438, 440, 446, 447, 448, 449, 450, 451, 453, 454, 455, 465, 467, 481, 493, 494, 495, 496, 497, 498, 660, 661, 662, 663], 0x1427720000000000380090004008d1000600000, 1⟩,
    ⟨[86, 88, 92, 140, 142, 146, 414, 416, 420, 468, 470, 474], 0xf00000001d800001d00000000000000000000000, 0⟩,
    ⟨[113, 441], 0x1e800000000, 0⟩,
    ⟨[1, 8, 11, 14, 15, 17, 18, 19, 20, 21, 26, 28, 30, 34, 41, 42, 44, 45, 46, 48, 54, 55, 57, 58, 59, 60, 61, 62, 63, 64, 65, 69, 70, 71, 72, 73, 83, 85, 99, 110, 112, 117, 118, 119, 123, 125, 126, 127, 137, 139, 153, 164, 166, 332, 333, 336, 339, 342, 343, 345, 346, 347, 348, 349, 354, 356, 358, 362, 369, 370, 372, 373, 374, 376, 382, 383, 385, 386, 387, 388, 389, 390, 391, 392, 393, 397, 398, 399, 400, 401, 411, 413, 427, 438, 440, 445, 446, 447, 451, 453, 454, 455, 465, 467, 481, 492, 494, 660, 661, 662, 663], 0x2922414274c0060000284800090004008d1000600000, 1⟩,
    ⟨[1, 8, 61, 63, 64, 65, 69, 70, 71, 72, 73, 83, 85, 99, 110, 112, 117, 118, 119, 123, 125, 126, 127, 137, 139, 153, 164, 166, 170, 332, 333, 336, 389, 391, 392, 393, 397, 398, 399, 400, 401, 411, 413, 427, 438, 440, 445, 446, 447, 451, 453, 454, 455, 465, 467, 481, 492, 494, 498, 660, 661, 662, 663], 0x1427000000000000000090004008d1000600000, 1⟩,
    ⟨[1, 8, 61, 70, 72, 74, 77, 78, 82, 83, 85, 98, 100, 103, 104, 108, 109, 110, 112, 124, 126, 128, 131, 132, 136, 137, 139, 152, 154, 157, 158, 162, 163, 170, 332, 333, 336, 389, 398, 400, 402, 405, 406, 410, 411, 413, 426, 428, 431, 432, 436, 437, 438, 440, 452, 454, 456, 459, 460, 464, 465, 467, 480, 482, 485, 486, 490, 491, 498, 660, 661, 662, 663], 0x1f80000000000000000090004008df000600000, 1⟩,
    ⟨[1, 8, 61, 70, 72, 80, 82, 83, 85, 98, 106, 108, 109, 110, 112, 124, 126, 134, 136, 137, 139, 152, 160, 162, 163, 170, 332, 333, 336, 389, 398, 400, 408, 410, 411, 413, 426, 434, 436, 437, 438, 440, 452, 454, 462, 464, 465, 467, 480, 488, 490, 491, 498, 660, 661, 662, 663], 0x90004008e0000600000, 1⟩,
    ⟨[1, 8, 11, 14, 15, 18, 19, 20, 21, 26, 28, 30, 34, 41, 42, 45, 46, 48, 54, 55, 58, 59, 60, 61, 62, 63, 64, 65, 69, 70, 71, 72, 73, 83, 85, 99, 110, 112, 117, 118, 119, 123, 125, 126, 127, 137, 139, 153, 164, 166, 332, 333, 336, 339, 342, 343, 346, 347, 348, 349, 354, 356, 358, 362, 369, 370, 373, 374, 376, 382, 383, 386, 387, 388, 389, 390, 391, 392, 393, 397, 398, 399, 400, 401, 411, 413, 427, 438, 440, 445, 446, 447, 451, 453, 454, 455, 465, 467, 481, 492, 494, 660, 661, 662, 663], 0x22414274c0060000284800090004008d1000600000, 1⟩,
    ⟨[1, 8, 11, 27, 28, 29, 30, 34, 38, 39, 59, 60, 61, 62, 63, 64, 65, 69, 70, 71, 72, 73, 83, 85, 99, 110, 112, 117, 118, 119, 123, 125, 126, 127, 137, 139, 153, 164, 166, 332, 333, 336, 339, 355, 356, 357, 358, 362, 366, 367, 387, 388, 389, 390, 391, 392, 393, 397, 398, 399, 400, 401, 411, 413, 427, 438, 440, 445, 446, 447, 451, 453, 454, 455, 465, 467, 481, 492, 494, 660, 661, 662, 663], 0x414274c0060000004800090004008d1000600000, 1⟩,
    ⟨[1, 8, 172, 181, 183, 190, 193, 194, 196, 209, 216, 219, 220, 221, 223, 235, 237, 244, 247, 248, 250, 263, 270, 273, 274, 281, 282, 283, 284, 285, 286, 287, 291, 292, 293, 298, 300, 302, 306, 312, 313, 314, 318, 320, 325, 327, 332, 333, 336, 500, 509, 511, 518, 521, 522, 524, 537, 544, 547, 548, 549, 551, 563, 565, 572, 575, 576, 578, 591, 598, 601, 602, 609, 610, 611, 612, 613, 614, 615, 619, 620, 621, 626, 628, 630, 634, 640, 641, 642, 646, 648, 653, 655, 660, 661, 662, 663], 0x1b34640000000b800058ac1001c00400180000600000, 1⟩,
    ⟨[1, 8, 172, 181, 183, 186, 193, 194, 196, 209, 212, 219, 220, 221, 223, 235, 237, 240, 247, 248, 250, 263, 266, 273, 274, 281, 282, 283, 284, 285, 286, 287, 291, 292, 293, 298, 300, 302, 306, 312, 313, 314, 318, 320, 325, 327, 332, 333, 336, 500, 509, 511, 514, 521, 522, 524, 537, 540, 547, 548, 549, 551, 563, 565, 568, 575, 576, 578, 591, 594, 601, 602, 609, 610, 611, 612, 613, 614, 615, 619, 620, 621, 626, 628, 630, 634, 640, 641, 642, 646, 648, 653, 655, 660, 661, 662, 663], 0x1b34640000000b800058a80001c004001a1000600000, 1⟩,
    ⟨[1, 8, 172, 181, 183, 192, 193, 194, 196, 209, 218, 219, 220, 221, 223, 235, 237, 246, 247, 248, 250, 263, 272, 273, 274, 281, 282, 283, 284, 285, 286, 287, 291, 292, 293, 298, 300, 302, 306, 312, 313, 314, 318, 320, 325, 327, 332, 333, 336, 500, 509, 511, 520, 521, 522, 524, 537, 546, 547, 548, 549, 551, 563, 565, 574, 575, 576, 578, 591, 600, 601, 602, 609, 610, 611, 612, 613, 614, 615, 619, 620, 621, 626, 628, 630, 634, 640, 641, 642, 646, 648, 653, 655, 660, 661, 662, 663], 0x1b34640000000b800058ac1001c00400180000600000, 1⟩,
    ⟨[1, 8, 11, 20, 23, 25, 26, 28, 30, 34, 47, 50, 52, 59, 60, 61, 62, 63, 64, 65, 69, 70, 71, 72, 73, 83, 85, 99, 110, 112, 117, 118, 119, 123, 125, 126, 127, 137, 139, 153, 164, 166, 332, 333, 336, 339, 348, 351, 353, 354, 356, 358, 362, 375, 378, 380, 387, 388, 389, 390, 391, 392, 393, 397, 398, 399, 400, 401, 411, 413, 427, 438, 440, 445, 446, 447, 451, 453, 454, 455, 465, 467, 481, 492, 494, 660, 661, 662, 663], 0x414274c0060000004c30090004008d1000600000, 1⟩,
    ⟨[1, 8, 283, 299, 300, 301, 302, 306, 309, 310, 311, 331, 332, 333, 336, 611, 627, 628, 629, 630, 634, 637, 638, 639, 659, 660, 661, 662, 663], 0x640000000b800000ab2000000400000000600000, 1⟩,
    ⟨[1, 8, 283, 286, 287, 289, 290, 291, 292, 293, 298, 300, 302, 306, 313, 314, 316, 317, 318, 320, 326, 327, 329, 330, 331, 332, 333, 336, 611, 614, 615, 617, 618, 619, 620, 621, 626, 628, 630, 634, 641, 642, 644, 645, 646, 648, 654, 655, 657, 658, 659, 660, 661, 662, 663], 0x3134640000000b800058a80000000400000000600000, 1⟩,
    ⟨[1, 8, 283, 286, 287, 290, 291, 292, 293, 298, 300, 302, 306, 313, 314, 317, 318, 320, 326, 327, 330, 331, 332, 333, 336, 611, 614, 615, 618, 619, 620, 621, 626, 628, 630, 634, 641, 642, 645, 646, 648, 654, 655, 658, 659, 660, 661, 662, 663], 0x34640000000b800058a80000000400000000600000, 1⟩,
    ⟨[1, 8, 283, 299, 300, 301, 302, 306, 310, 311, 331, 332, 333, 336, 611, 627, 628, 629, 630, 634, 638, 639, 659, 660, 661, 662, 663], 0x640000000b800000a80000000400000000600000, 1⟩,
    ⟨[1, 8, 283, 292, 295, 297, 298, 300, 302, 306, 319, 322, 324, 331, 332, 333, 336, 611, 620, 623, 625, 626, 628, 630, 634, 647, 650, 652, 659, 660, 661, 662, 663], 0x640000000b800000ac4000000400000000600000, 1⟩,
    ⟨[1, 8, 172, 181, 195, 196, 198, 206, 207, 208, 220, 221, 223, 235, 249, 250, 252, 260, 261, 262, 274, 281, 282, 283, 284, 285, 286, 287, 291, 292, 293, 298, 300, 302, 306, 312, 313, 314, 318, 320, 325, 327, 332, 333, 336, 500, 509, 523, 524, 526, 534, 535, 536, 548, 549, 551, 563, 577, 578, 580, 588, 589, 590, 602, 609, 610, 611, 612, 613, 614, 615, 619, 620, 621, 626, 628, 630, 634, 640, 641, 642, 646, 648, 653, 655, 660, 661, 662, 663], 0x1b34640000000b800058ab5001c00400180000600000, 1⟩,
    ⟨[1, 8, 172, 181, 195, 196, 198, 207, 208, 220, 221, 223, 235, 249, 250, 252, 261, 262, 274, 281, 282, 283, 284, 285, 286, 287, 291, 292, 293, 298, 300, 302, 306, 312, 313, 314, 318, 320, 325, 327, 332, 333, 336, 500, 509, 523, 524, 526, 535, 536, 548, 549, 551, 563, 577, 578, 580, 589, 590, 602, 609, 610, 611, 612, 613, 614, 615, 619, 620, 621, 626, 628, 630, 634, 640, 641, 642, 646, 648, 653, 655, 660, 661, 662, 663], 0x1b34640000000b800058a80001c00400180000600000, 1⟩,
    ⟨[1, 8, 172, 222, 226, 227, 281, 282, 283, 284, 285, 286, 287, 291, 292, 293, 298, 300, 302, 306, 312, 313, 314, 318, 320, 325, 327, 332, 333, 336, 500, 550, 554, 555, 609, 610, 611, 612, 613, 614, 615, 619, 620, 621, 626, 628, 630, 634, 640, 641, 642, 646, 648, 653, 655, 660, 661, 662, 663], 0x1b34640006e00b800058a80000000400000000600000, 1⟩,
    ⟨[1, 8, 172, 222, 227, 281, 282, 283, 284, 285, 286, 287, 291, 292, 293, 298, 300, 302, 306, 312, 313, 314, 318, 320, 325, 327, 332, 333, 336, 500, 550, 555, 609, 610, 611, 612, 613, 614, 615, 619, 620, 621, 626, 628, 630, 634, 640, 641, 642, 646, 648, 653, 655, 660, 661, 662, 663], 0x1b34640000000b800058a80000000400000000600000, 1⟩,
    ⟨[1, 8, 61, 64, 65, 67, 68, 69, 70, 71, 72, 73, 83, 85, 99, 110, 112, 118, 119, 121, 122, 123, 125, 126, 127, 137, 139, 153, 165, 166, 168, 169, 170, 332, 333, 336, 389, 392, 393, 395, 396, 397, 398, 399, 400, 401, 411, 413, 427, 438, 440, 446, 447, 449, 450, 451, 453, 454, 455, 465, 467, 481, 493, 494, 496, 497, 498, 660, 661, 662, 663], 0x1427720000000000000090004008d1000600000, 1⟩,
    ⟨[1, 8, 61, 64, 65, 68, 69, 70, 71, 72, 73, 83, 85, 99, 110, 112, 118, 119, 122, 123, 125, 126, 127, 137, 139, 153, 165, 166, 169, 170, 332, 333, 336, 389, 392, 393, 396, 397, 398, 399, 400, 401, 411, 413, 427, 438, 440, 446, 447, 450, 451, 453, 454, 455, 465, 467, 481, 493, 494, 497, 498, 660, 661, 662, 663], 0x1427000000000000000090004008d1000600000, 1⟩,
    ⟨[91, 93, 94, 145, 147, 148, 419, 421, 422, 473, 475, 476], 0xe80008a01d000001d00740000000e9d00, 0⟩,
    ⟨[1, 8, 61, 70, 84, 85, 87, 89, 96, 97, 109, 110, 112, 124, 138, 139, 141, 143, 150, 151, 163, 170, 332, 333, 336, 389, 398, 412, 413, 415, 417, 424, 425, 437, 438, 440, 452, 466, 467, 469, 471, 478, 479, 491, 498, 660, 661, 662, 663], 0x460090004008c0000600000, 1⟩,
    ⟨[1, 8, 61, 70, 84, 85, 87, 90, 96, 97, 109, 110, 112, 124, 138, 139, 141, 144, 150, 151, 163, 170, 332, 333, 336, 389, 398, 412, 413, 415, 418, 424, 425, 437, 438, 440, 452, 466, 467, 469, 472, 478, 479, 491, 498, 660, 661, 662, 663], 0x460090004008c0000600000, 1⟩,
    ⟨[1, 8, 61, 111, 114, 115, 116, 170, 332, 333, 336, 389, 439, 442, 443, 444, 498, 660, 661, 662, 663], 0x90000000000047000000400000000600000, 1⟩,
    ⟨[1, 8, 61, 70, 72, 79, 82, 83, 85, 98, 105, 108, 109, 110, 112, 124, 126, 133, 136, 137, 139, 152, 159, 162, 163, 170, 332, 333, 336, 389, 398, 400, 407, 410, 411, 413, 426, 433, 436, 437, 438, 440, 452, 454, 461, 464, 465, 467, 480, 487, 490, 491, 498, 660, 661, 662, 663], 0x490090004008c0000600000, 1⟩,
    ⟨[1, 8, 61, 70, 72, 75, 82, 83, 85, 98, 101, 108, 109, 110, 112, 124, 126, 129, 136, 137, 139, 152, 155, 162, 163, 170, 332, 333, 336, 389, 398, 400, 403, 410, 411, 413, 426, 429, 436, 437, 438, 440, 452, 454, 457, 464, 465, 467, 480, 483, 490, 491, 498, 660, 661, 662, 663], 0x90004008e5000600000, 1⟩,
    ⟨[1, 8, 61, 70, 72, 81, 82, 83, 85, 98, 107, 108, 109, 110, 112, 124, 126, 135, 136, 137, 139, 152, 161, 162, 163, 170, 332, 333, 336, 389, 398, 400, 409, 410, 411, 413, 426, 435, 436, 437, 438, 440, 452, 454, 463, 464, 465, 467, 480, 489, 490, 491, 498, 660, 661, 662, 663], 0x490090004008c0000600000, 1⟩,
    ⟨[1, 8, 172, 181, 183, 193, 194, 196, 209, 219, 220, 221, 223, 235, 237, 247, 248, 250, 263, 273, 274, 281, 282, 283, 284, 285, 286, 287, 291, 292, 293, 298, 300, 302, 306, 312, 313, 314, 318, 320, 325, 327, 332, 333, 336, 500, 509, 511, 521, 522, 524, 537, 547, 548, 549, 551, 563, 565, 575, 576, 578, 591, 601, 602, 609, 610, 611, 612, 613, 614, 615, 619, 620, 621, 626, 628, 630, 634, 640, 641, 642, 646, 648, 653, 655, 660, 661, 662, 663], 0x1b34640000000b800058a80001c00400180000600000, 1⟩,
    ⟨[1, 8, 172, 181, 183, 187, 193, 194, 196, 209, 213, 219, 220, 221, 223, 235, 237, 241, 247, 248, 250, 263, 267, 273, 274, 281, 282, 283, 284, 285, 286, 287, 291, 292, 293, 298, 300, 302, 306, 312, 313, 314, 318, 320, 325, 327, 332, 333, 336, 500, 509, 511, 515, 521, 522, 524, 537, 541, 547, 548, 549, 551, 563, 565, 569, 575, 576, 578, 591, 595, 601, 602, 609, 610, 611, 612, 613, 614, 615, 619, 620, 621, 626, 628, 630, 634, 640, 641, 642, 646, 648, 653, 655, 660, 661, 662, 663], 0x1b34640000000b800058ac1001c00400180000600000, 1⟩,
    ⟨[1, 8, 11, 20, 25, 26, 28, 30, 34, 47, 52, 59, 60, 61, 62, 63, 64, 65, 69, 70, 71, 72, 73, 83, 85, 99, 110, 112, 117, 118, 119, 123, 125, 126, 127, 137, 139, 153, 164, 166, 332, 333, 336, 339, 348, 353, 354, 356, 358, 362, 375, 380, 387, 388, 389, 390, 391, 392, 393, 397, 398, 399, 400, 401, 411, 413, 427, 438, 440, 445, 446, 447, 451, 453, 454, 455, 465, 467, 481, 492, 494, 660, 661, 662, 663], 0x414274c0060000004800090004008d1000600000, 1⟩,
    ⟨[1, 8, 283, 292, 297, 298, 300, 302, 306, 319, 324, 331, 332, 333, 336, 611, 620, 625, 626, 628, 630, 634, 647, 652, 659, 660, 661, 662, 663], 0x640000000b800000a80000000400000000600000, 1⟩,
    ⟨[1, 8, 61, 70, 84, 85, 87, 95, 96, 97, 109, 110, 112, 124, 138, 139, 141, 149, 150, 151, 163, 170, 332, 333, 336, 389, 398, 412, 413, 415, 423, 424, 425, 437, 438, 440, 452, 466, 467, 469, 477, 478, 479, 491, 498, 660, 661, 662, 663], 0x460090004008c0000600000, 1⟩,
    ⟨[1, 8, 61, 70, 84, 85, 87, 96, 97, 109, 110, 112, 124, 138, 139, 141, 150, 151, 163, 170, 332, 333, 336, 389, 398, 412, 413, 415, 424, 425, 437, 438, 440, 452, 466, 467, 469, 478, 479, 491, 498, 660, 661, 662, 663], 0x90004008c0000600000, 1⟩,
    ⟨[1, 8, 61, 111, 115, 116, 170, 332, 333, 336, 389, 439, 443, 444, 498, 660, 661, 662, 663], 0x90000000000000000000400000000600000, 1⟩,
    ⟨[1, 8, 61, 111, 116, 170, 332, 333, 336, 389, 439, 444, 498, 660, 661, 662, 663], 0x400000000600000, 1⟩,
    ⟨[1, 8, 61, 70, 72, 82, 83, 85, 98, 108, 109, 110, 112, 124, 126, 136, 137, 139, 152, 162, 163, 170, 332, 333, 336, 389, 398, 400, 410, 411, 413, 426, 436, 437, 438, 440, 452, 454, 464, 465, 467, 480, 490, 491, 498, 660, 661, 662, 663], 0x90004008c0000600000, 1⟩,
    ⟨[1, 8, 61, 70, 72, 76, 82, 83, 85, 98, 102, 108, 109, 110, 112, 124, 126, 130, 136, 137, 139, 152, 156, 162, 163, 170, 332, 333, 336, 389, 398, 400, 404, 410, 411, 413, 426, 430, 436, 437, 438, 440, 452, 454, 458, 464, 465, 467, 480, 484, 490, 491, 498, 660, 661, 662, 663], 0x490090004008c0000600000, 1⟩]

theorem stag_graphOk : stagCert.graphOk stagNfa 0 18 10 = true := by decide +kernel

theorem stag_namesOk : stagCert.namesOk stagNfa 0 10 = true := by decide +kernel

theorem stag_certOk : CertOk stagCert stagNfa 0 := cert_ok stag_graphOk stag_namesOk

end Jbo.Stag
