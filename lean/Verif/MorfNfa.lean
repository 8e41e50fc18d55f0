import Verif.BlockEval
import Verif.MorfSrc
/-!
# The NFA of the morphology

What `dfasyn` reads from `morf_nfa.in`, checked by the kernel (see `BlockEval`).
-/

namespace Jbo.Morf
open Jbo.Dfasyn
set_option maxRecDepth 100000

/-- The states of the main block of `morf_nfa.in`, in order. -/
def morfStates : List NState := [
  ⟨[(some 6, 1), (some 6, 6), (some 5, 6), (some 4, 6)], [], []⟩,
  ⟨[(some 8, 2), (some 9, 2)], [], []⟩,
  ⟨[(some 1, 3)], [], []⟩,
  ⟨[(some 6, 4), (some 5, 4), (some 4, 4)], [], []⟩,
  ⟨[(some 1, 5)], [], []⟩,
  ⟨[], [c!"TAG_GISMU_0"], []⟩,
  ⟨[(some 1, 7)], [], []⟩,
  ⟨[(some 6, 8), (some 5, 8), (some 4, 8)], [], []⟩,
  ⟨[(some 8, 9), (some 9, 9), (some 10, 9), (some 11, 9), (some 7, 9)], [], []⟩,
  ⟨[(some 1, 10)], [], []⟩,
  ⟨[], [c!"TAG_GISMU_1"], []⟩,
  ⟨[(some 6, 12), (some 5, 12), (some 4, 12), (some 6, 15), (some 5, 15), (some 4, 15), (some 6, 17), (some 6, 19), (some 5, 19), (some 4, 19), (some 6, 21), (some 5, 21), (some 4, 21), (some 6, 24)], [], []⟩,
  ⟨[(some 1, 13)], [], []⟩,
  ⟨[(some 2, 14)], [], []⟩,
  ⟨[(some 1, 27)], [], []⟩,
  ⟨[(some 1, 16)], [], []⟩,
  ⟨[(some 16, 27)], [], []⟩,
  ⟨[(some 8, 18), (some 9, 18)], [], []⟩,
  ⟨[(some 1, 28)], [], []⟩,
  ⟨[(some 1, 20)], [], []⟩,
  ⟨[(some 6, 29), (some 5, 29), (some 4, 29)], [], []⟩,
  ⟨[(some 1, 22)], [], []⟩,
  ⟨[(some 6, 23), (some 5, 23), (some 4, 23)], [], []⟩,
  ⟨[(some 8, 30), (some 9, 30), (some 10, 30), (some 11, 30), (some 7, 30)], [], []⟩,
  ⟨[(some 8, 25), (some 9, 25)], [], []⟩,
  ⟨[(some 1, 26)], [], []⟩,
  ⟨[(some 6, 31), (some 5, 31), (some 4, 31)], [], []⟩,
  ⟨[(none, 32)], [], []⟩,
  ⟨[(none, 35)], [], []⟩,
  ⟨[(none, 44)], [], []⟩,
  ⟨[(none, 40)], [], []⟩,
  ⟨[(none, 36)], [], []⟩,
  ⟨[(some 4, 33), (some 5, 34), (some 6, 49), (some 5, 49), (some 4, 49)], [], []⟩,
  ⟨[(some 11, 51), (some 10, 51), (some 11, 50), (some 10, 50)], [], []⟩,
  ⟨[(some 7, 51), (some 7, 50)], [], []⟩,
  ⟨[(some 6, 53), (some 5, 53), (some 4, 53), (some 6, 52), (some 5, 52), (some 4, 52)], [], []⟩,
  ⟨[(some 3, 37), (some 3, 38)], [], []⟩,
  ⟨[(some 12, 53), (some 8, 53), (some 9, 53), (some 10, 53), (some 11, 53), (some 7, 53), (some 12, 52), (some 8, 52), (some 9, 52), (some 10, 52), (some 11, 52), (some 7, 52)], [], []⟩,
  ⟨[(some 10, 39)], [], []⟩,
  ⟨[(some 15, 54)], [], []⟩,
  ⟨[(some 3, 41), (some 3, 42)], [], []⟩,
  ⟨[(some 15, 51), (some 13, 51), (some 14, 51), (some 12, 51), (some 8, 51), (some 9, 51), (some 10, 51), (some 11, 51), (some 7, 51), (some 15, 55), (some 13, 55), (some 14, 55), (some 12, 55), (some 8, 55), (some 9, 55), (some 10, 55), (some 11, 55), (some 7, 55)], [], []⟩,
  ⟨[(some 13, 43), (some 10, 43)], [], []⟩,
  ⟨[(some 15, 56)], [], []⟩,
  ⟨[(some 8, 51), (some 9, 51), (some 10, 51), (some 11, 51), (some 7, 51), (some 8, 55), (some 9, 55), (some 10, 55), (some 11, 55), (some 7, 55), (some 3, 45), (some 3, 46), (some 3, 47)], [], []⟩,
  ⟨[(some 12, 51), (some 12, 55)], [], []⟩,
  ⟨[(some 8, 59), (some 9, 59), (some 8, 58), (some 9, 58), (some 8, 57), (some 9, 57)], [], []⟩,
  ⟨[(some 10, 48)], [], []⟩,
  ⟨[(some 15, 56)], [], []⟩,
  ⟨[(none, 162)], [], []⟩,
  ⟨[(none, 152)], [], []⟩,
  ⟨[(none, 168)], [], []⟩,
  ⟨[(none, 86)], [], []⟩,
  ⟨[(none, 113)], [], []⟩,
  ⟨[(none, 114)], [], []⟩,
  ⟨[(none, 141)], [], []⟩,
  ⟨[(none, 169)], [], []⟩,
  ⟨[(none, 291)], [], []⟩,
  ⟨[(none, 196)], [], []⟩,
  ⟨[(none, 223)], [], []⟩,
  ⟨[(some 9, 68), (some 8, 68), (some 1, 66), (some 1, 65), (some 9, 64), (some 8, 64), (some 1, 62), (some 1, 61)], [], []⟩,
  ⟨[(some 16, 72)], [], []⟩,
  ⟨[(some 2, 63)], [], []⟩,
  ⟨[(some 1, 72)], [], []⟩,
  ⟨[(some 1, 72)], [], []⟩,
  ⟨[(some 4, 73), (some 5, 73), (some 6, 73)], [], []⟩,
  ⟨[(some 4, 67), (some 5, 67), (some 6, 67)], [], []⟩,
  ⟨[(some 7, 74), (some 11, 74), (some 10, 74), (some 9, 74), (some 8, 74)], [], []⟩,
  ⟨[(some 1, 69)], [], []⟩,
  ⟨[(some 4, 74), (some 5, 74), (some 6, 74)], [], []⟩,
  ⟨[(some 1, 71), (some 1, 72)], [], []⟩,
  ⟨[(some 4, 74), (some 5, 74), (some 6, 74)], [], []⟩,
  ⟨[(none, 75)], [], []⟩,
  ⟨[(none, 76)], [], []⟩,
  ⟨[(none, 80)], [], []⟩,
  ⟨[(some 4, 84), (some 5, 84), (some 6, 84)], [], []⟩,
  ⟨[(some 7, 84), (some 11, 84), (some 10, 84), (some 9, 84), (some 8, 84), (some 3, 78), (some 3, 77)], [], []⟩,
  ⟨[(some 12, 84)], [], []⟩,
  ⟨[(some 10, 79)], [], []⟩,
  ⟨[(some 15, 85)], [], []⟩,
  ⟨[(some 3, 82), (some 3, 81)], [], []⟩,
  ⟨[(some 7, 84), (some 11, 84), (some 10, 84), (some 9, 84), (some 8, 84), (some 12, 84), (some 14, 84), (some 13, 84), (some 15, 84)], [], []⟩,
  ⟨[(some 10, 83), (some 13, 83)], [], []⟩,
  ⟨[(some 15, 85)], [], []⟩,
  ⟨[(none, 60), (none, 86)], [], []⟩,
  ⟨[(none, 70), (none, 109)], [], []⟩,
  ⟨[(some 1, 94), (some 9, 91), (some 8, 91), (some 9, 90), (some 8, 90), (some 1, 89), (some 1, 87)], [], []⟩,
  ⟨[(some 2, 88)], [], []⟩,
  ⟨[(some 1, 112)], [], []⟩,
  ⟨[(some 16, 112)], [], []⟩,
  ⟨[(some 1, 112)], [], []⟩,
  ⟨[(some 1, 92)], [], []⟩,
  ⟨[(some 4, 93), (some 5, 93), (some 6, 93)], [], []⟩,
  ⟨[(some 1, 112)], [], []⟩,
  ⟨[(some 4, 95), (some 5, 95), (some 6, 95)], [], []⟩,
  ⟨[(some 7, 96), (some 11, 96), (some 10, 96), (some 9, 96), (some 8, 96)], [], []⟩,
  ⟨[(some 1, 112)], [], []⟩,
  ⟨[(some 1, 104), (some 9, 101), (some 8, 101), (some 1, 100), (some 1, 98)], [], []⟩,
  ⟨[(some 2, 99)], [], []⟩,
  ⟨[(some 1, 112)], [], []⟩,
  ⟨[(some 16, 112)], [], []⟩,
  ⟨[(some 1, 102)], [], []⟩,
  ⟨[(some 4, 103), (some 5, 103), (some 6, 103)], [], []⟩,
  ⟨[(some 1, 112)], [], []⟩,
  ⟨[(some 4, 105), (some 5, 105), (some 6, 105)], [], []⟩,
  ⟨[(some 7, 106), (some 11, 106), (some 10, 106), (some 9, 106), (some 8, 106)], [], []⟩,
  ⟨[(some 1, 112)], [], []⟩,
  ⟨[(some 9, 108), (some 8, 108)], [], []⟩,
  ⟨[(some 1, 112)], [], []⟩,
  ⟨[(some 1, 110), (some 1, 112)], [], []⟩,
  ⟨[(some 4, 111), (some 5, 111), (some 6, 111)], [], []⟩,
  ⟨[(some 1, 112)], [], []⟩,
  ⟨[(none, 295)], [], []⟩,
  ⟨[(none, 60)], [], []⟩,
  ⟨[(none, 70), (none, 109)], [], []⟩,
  ⟨[(some 9, 123), (some 8, 123), (some 1, 121), (some 1, 120), (some 9, 119), (some 8, 119), (some 1, 117), (some 1, 116)], [], []⟩,
  ⟨[(some 16, 127)], [], []⟩,
  ⟨[(some 2, 118)], [], []⟩,
  ⟨[(some 1, 127)], [], []⟩,
  ⟨[(some 1, 127)], [], []⟩,
  ⟨[(some 4, 128), (some 5, 128), (some 6, 128)], [], []⟩,
  ⟨[(some 4, 122), (some 5, 122), (some 6, 122)], [], []⟩,
  ⟨[(some 7, 129), (some 11, 129), (some 10, 129), (some 9, 129), (some 8, 129)], [], []⟩,
  ⟨[(some 1, 124)], [], []⟩,
  ⟨[(some 4, 129), (some 5, 129), (some 6, 129)], [], []⟩,
  ⟨[(some 1, 126), (some 1, 127)], [], []⟩,
  ⟨[(some 4, 129), (some 5, 129), (some 6, 129)], [], []⟩,
  ⟨[(none, 130)], [], []⟩,
  ⟨[(none, 131)], [], []⟩,
  ⟨[(none, 135)], [], []⟩,
  ⟨[(some 4, 139), (some 5, 139), (some 6, 139)], [], []⟩,
  ⟨[(some 7, 139), (some 11, 139), (some 10, 139), (some 9, 139), (some 8, 139), (some 3, 133), (some 3, 132)], [], []⟩,
  ⟨[(some 12, 139)], [], []⟩,
  ⟨[(some 10, 134)], [], []⟩,
  ⟨[(some 15, 140)], [], []⟩,
  ⟨[(some 3, 137), (some 3, 136)], [], []⟩,
  ⟨[(some 7, 139), (some 11, 139), (some 10, 139), (some 9, 139), (some 8, 139), (some 12, 139), (some 14, 139), (some 13, 139), (some 15, 139)], [], []⟩,
  ⟨[(some 10, 138), (some 13, 138)], [], []⟩,
  ⟨[(some 15, 140)], [], []⟩,
  ⟨[(none, 115), (none, 141)], [], []⟩,
  ⟨[(none, 125), (none, 164)], [], []⟩,
  ⟨[(some 1, 149), (some 9, 146), (some 8, 146), (some 9, 145), (some 8, 145), (some 1, 144), (some 1, 142)], [], []⟩,
  ⟨[(some 2, 143)], [], []⟩,
  ⟨[(some 1, 167)], [], []⟩,
  ⟨[(some 16, 167)], [], []⟩,
  ⟨[(some 1, 167)], [], []⟩,
  ⟨[(some 1, 147)], [], []⟩,
  ⟨[(some 4, 148), (some 5, 148), (some 6, 148)], [], []⟩,
  ⟨[(some 1, 167)], [], []⟩,
  ⟨[(some 4, 150), (some 5, 150), (some 6, 150)], [], []⟩,
  ⟨[(some 7, 151), (some 11, 151), (some 10, 151), (some 9, 151), (some 8, 151)], [], []⟩,
  ⟨[(some 1, 167)], [], []⟩,
  ⟨[(some 1, 159), (some 9, 156), (some 8, 156), (some 1, 155), (some 1, 153)], [], []⟩,
  ⟨[(some 2, 154)], [], []⟩,
  ⟨[(some 1, 167)], [], []⟩,
  ⟨[(some 16, 167)], [], []⟩,
  ⟨[(some 1, 157)], [], []⟩,
  ⟨[(some 4, 158), (some 5, 158), (some 6, 158)], [], []⟩,
  ⟨[(some 1, 167)], [], []⟩,
  ⟨[(some 4, 160), (some 5, 160), (some 6, 160)], [], []⟩,
  ⟨[(some 7, 161), (some 11, 161), (some 10, 161), (some 9, 161), (some 8, 161)], [], []⟩,
  ⟨[(some 1, 167)], [], []⟩,
  ⟨[(some 9, 163), (some 8, 163)], [], []⟩,
  ⟨[(some 1, 167)], [], []⟩,
  ⟨[(some 1, 165), (some 1, 167)], [], []⟩,
  ⟨[(some 4, 166), (some 5, 166), (some 6, 166)], [], []⟩,
  ⟨[(some 1, 167)], [], []⟩,
  ⟨[(none, 296)], [], []⟩,
  ⟨[(none, 115)], [], []⟩,
  ⟨[(none, 125), (none, 164)], [], []⟩,
  ⟨[(some 9, 178), (some 8, 178), (some 1, 176), (some 1, 175), (some 9, 174), (some 8, 174), (some 1, 172), (some 1, 171)], [], []⟩,
  ⟨[(some 16, 182)], [], []⟩,
  ⟨[(some 2, 173)], [], []⟩,
  ⟨[(some 1, 182)], [], []⟩,
  ⟨[(some 1, 182)], [], []⟩,
  ⟨[(some 4, 183), (some 5, 183), (some 6, 183)], [], []⟩,
  ⟨[(some 4, 177), (some 5, 177), (some 6, 177)], [], []⟩,
  ⟨[(some 7, 184), (some 11, 184), (some 10, 184), (some 9, 184), (some 8, 184)], [], []⟩,
  ⟨[(some 1, 179)], [], []⟩,
  ⟨[(some 4, 184), (some 5, 184), (some 6, 184)], [], []⟩,
  ⟨[(some 1, 181), (some 1, 182)], [], []⟩,
  ⟨[(some 4, 184), (some 5, 184), (some 6, 184)], [], []⟩,
  ⟨[(none, 185)], [], []⟩,
  ⟨[(none, 186)], [], []⟩,
  ⟨[(none, 190)], [], []⟩,
  ⟨[(some 4, 194), (some 5, 194), (some 6, 194)], [], []⟩,
  ⟨[(some 7, 194), (some 11, 194), (some 10, 194), (some 9, 194), (some 8, 194), (some 3, 188), (some 3, 187)], [], []⟩,
  ⟨[(some 12, 194)], [], []⟩,
  ⟨[(some 10, 189)], [], []⟩,
  ⟨[(some 15, 195)], [], []⟩,
  ⟨[(some 3, 192), (some 3, 191)], [], []⟩,
  ⟨[(some 7, 194), (some 11, 194), (some 10, 194), (some 9, 194), (some 8, 194), (some 12, 194), (some 14, 194), (some 13, 194), (some 15, 194)], [], []⟩,
  ⟨[(some 10, 193), (some 13, 193)], [], []⟩,
  ⟨[(some 15, 195)], [], []⟩,
  ⟨[(none, 170), (none, 196)], [], []⟩,
  ⟨[(none, 180), (none, 219)], [], []⟩,
  ⟨[(some 1, 204), (some 9, 201), (some 8, 201), (some 9, 200), (some 8, 200), (some 1, 199), (some 1, 197)], [], []⟩,
  ⟨[(some 2, 198)], [], []⟩,
  ⟨[(some 1, 222)], [], []⟩,
  ⟨[(some 16, 222)], [], []⟩,
  ⟨[(some 1, 222)], [], []⟩,
  ⟨[(some 1, 202)], [], []⟩,
  ⟨[(some 4, 203), (some 5, 203), (some 6, 203)], [], []⟩,
  ⟨[(some 1, 222)], [], []⟩,
  ⟨[(some 4, 205), (some 5, 205), (some 6, 205)], [], []⟩,
  ⟨[(some 7, 206), (some 11, 206), (some 10, 206), (some 9, 206), (some 8, 206)], [], []⟩,
  ⟨[(some 1, 222)], [], []⟩,
  ⟨[(some 1, 214), (some 9, 211), (some 8, 211), (some 1, 210), (some 1, 208)], [], []⟩,
  ⟨[(some 2, 209)], [], []⟩,
  ⟨[(some 1, 222)], [], []⟩,
  ⟨[(some 16, 222)], [], []⟩,
  ⟨[(some 1, 212)], [], []⟩,
  ⟨[(some 4, 213), (some 5, 213), (some 6, 213)], [], []⟩,
  ⟨[(some 1, 222)], [], []⟩,
  ⟨[(some 4, 215), (some 5, 215), (some 6, 215)], [], []⟩,
  ⟨[(some 7, 216), (some 11, 216), (some 10, 216), (some 9, 216), (some 8, 216)], [], []⟩,
  ⟨[(some 1, 222)], [], []⟩,
  ⟨[(some 9, 218), (some 8, 218)], [], []⟩,
  ⟨[(some 1, 222)], [], []⟩,
  ⟨[(some 1, 220), (some 1, 222)], [], []⟩,
  ⟨[(some 4, 221), (some 5, 221), (some 6, 221)], [], []⟩,
  ⟨[(some 1, 222)], [], []⟩,
  ⟨[(none, 297)], [], []⟩,
  ⟨[(none, 170)], [], []⟩,
  ⟨[(none, 180), (none, 219)], [], []⟩,
  ⟨[(some 1, 226), (some 1, 227)], [], []⟩,
  ⟨[(some 4, 228), (some 5, 228), (some 6, 228)], [], []⟩,
  ⟨[(none, 229)], [], []⟩,
  ⟨[(none, 230)], [], []⟩,
  ⟨[(some 4, 234), (some 5, 234), (some 6, 234)], [], []⟩,
  ⟨[(some 3, 232), (some 3, 231)], [], []⟩,
  ⟨[(some 7, 234), (some 11, 234), (some 10, 234), (some 9, 234), (some 8, 234), (some 12, 234)], [], []⟩,
  ⟨[(some 10, 233), (some 11, 233)], [], []⟩,
  ⟨[(some 15, 235)], [], []⟩,
  ⟨[(none, 262), (none, 289)], [], []⟩,
  ⟨[(none, 290)], [], []⟩,
  ⟨[(some 1, 237), (some 1, 238), (some 8, 240), (some 9, 240), (some 1, 241), (some 1, 242), (some 8, 244), (some 9, 244)], [], []⟩,
  ⟨[(some 16, 248)], [], []⟩,
  ⟨[(some 2, 239)], [], []⟩,
  ⟨[(some 1, 248)], [], []⟩,
  ⟨[(some 1, 248)], [], []⟩,
  ⟨[(some 6, 249), (some 5, 249), (some 4, 249)], [], []⟩,
  ⟨[(some 6, 243), (some 5, 243), (some 4, 243)], [], []⟩,
  ⟨[(some 8, 250), (some 9, 250), (some 10, 250), (some 11, 250), (some 7, 250)], [], []⟩,
  ⟨[(some 1, 245)], [], []⟩,
  ⟨[(some 6, 250), (some 5, 250), (some 4, 250)], [], []⟩,
  ⟨[(some 1, 248), (some 1, 247)], [], []⟩,
  ⟨[(some 6, 250), (some 5, 250), (some 4, 250)], [], []⟩,
  ⟨[(none, 251)], [], []⟩,
  ⟨[(none, 252)], [], []⟩,
  ⟨[(none, 256)], [], []⟩,
  ⟨[(some 6, 260), (some 5, 260), (some 4, 260)], [], []⟩,
  ⟨[(some 3, 253), (some 3, 254), (some 8, 260), (some 9, 260), (some 10, 260), (some 11, 260), (some 7, 260)], [], []⟩,
  ⟨[(some 12, 260)], [], []⟩,
  ⟨[(some 10, 255)], [], []⟩,
  ⟨[(some 15, 261)], [], []⟩,
  ⟨[(some 3, 257), (some 3, 258)], [], []⟩,
  ⟨[(some 15, 260), (some 13, 260), (some 14, 260), (some 12, 260), (some 8, 260), (some 9, 260), (some 10, 260), (some 11, 260), (some 7, 260)], [], []⟩,
  ⟨[(some 13, 259), (some 10, 259)], [], []⟩,
  ⟨[(some 15, 261)], [], []⟩,
  ⟨[(none, 262), (none, 236)], [], []⟩,
  ⟨[(none, 285), (none, 246)], [], []⟩,
  ⟨[(some 1, 263), (some 1, 265), (some 8, 266), (some 9, 266), (some 8, 267), (some 9, 267), (some 1, 270)], [], []⟩,
  ⟨[(some 2, 264)], [], []⟩,
  ⟨[(some 1, 288)], [], []⟩,
  ⟨[(some 16, 288)], [], []⟩,
  ⟨[(some 1, 288)], [], []⟩,
  ⟨[(some 1, 268)], [], []⟩,
  ⟨[(some 6, 269), (some 5, 269), (some 4, 269)], [], []⟩,
  ⟨[(some 1, 288)], [], []⟩,
  ⟨[(some 6, 271), (some 5, 271), (some 4, 271)], [], []⟩,
  ⟨[(some 8, 272), (some 9, 272), (some 10, 272), (some 11, 272), (some 7, 272)], [], []⟩,
  ⟨[(some 1, 288)], [], []⟩,
  ⟨[(some 1, 274), (some 1, 276), (some 8, 277), (some 9, 277), (some 1, 280)], [], []⟩,
  ⟨[(some 2, 275)], [], []⟩,
  ⟨[(some 1, 288)], [], []⟩,
  ⟨[(some 16, 288)], [], []⟩,
  ⟨[(some 1, 278)], [], []⟩,
  ⟨[(some 6, 279), (some 5, 279), (some 4, 279)], [], []⟩,
  ⟨[(some 1, 288)], [], []⟩,
  ⟨[(some 6, 281), (some 5, 281), (some 4, 281)], [], []⟩,
  ⟨[(some 8, 282), (some 9, 282), (some 10, 282), (some 11, 282), (some 7, 282)], [], []⟩,
  ⟨[(some 1, 288)], [], []⟩,
  ⟨[(some 8, 284), (some 9, 284)], [], []⟩,
  ⟨[(some 1, 288)], [], []⟩,
  ⟨[(some 1, 288), (some 1, 286)], [], []⟩,
  ⟨[(some 6, 287), (some 5, 287), (some 4, 287)], [], []⟩,
  ⟨[(some 1, 288)], [], []⟩,
  ⟨[(none, 292)], [], []⟩,
  ⟨[(none, 236)], [], []⟩,
  ⟨[(none, 285), (none, 246)], [], []⟩,
  ⟨[(none, 225)], [], []⟩,
  ⟨[(none, 298)], [], []⟩,
  ⟨[(none, 11)], [], []⟩,
  ⟨[(none, 293)], [], []⟩,
  ⟨[], [c!"TAG_LUJVO_0"], []⟩,
  ⟨[], [c!"TAG_LUJVO_1"], []⟩,
  ⟨[], [c!"TAG_LUJVO_1T"], []⟩,
  ⟨[], [c!"TAG_LUJVO_TAIL_OK"], []⟩,
  ⟨[(some 6, 300), (some 5, 300), (some 4, 300), (some 6, 303), (some 5, 303), (some 4, 303), (some 6, 305), (some 6, 307), (some 5, 307), (some 4, 307), (some 6, 309), (some 5, 309), (some 4, 309), (some 6, 312), (none, 582)], [], []⟩,
  ⟨[(some 1, 301)], [], []⟩,
  ⟨[(some 2, 302)], [], []⟩,
  ⟨[(some 1, 315)], [], []⟩,
  ⟨[(some 1, 304)], [], []⟩,
  ⟨[(some 16, 315)], [], []⟩,
  ⟨[(some 8, 306), (some 9, 306)], [], []⟩,
  ⟨[(some 1, 316)], [], []⟩,
  ⟨[(some 1, 308)], [], []⟩,
  ⟨[(some 6, 317), (some 5, 317), (some 4, 317)], [], []⟩,
  ⟨[(some 1, 310)], [], []⟩,
  ⟨[(some 6, 311), (some 5, 311), (some 4, 311)], [], []⟩,
  ⟨[(some 8, 318), (some 9, 318), (some 10, 318), (some 11, 318), (some 7, 318)], [], []⟩,
  ⟨[(some 8, 313), (some 9, 313)], [], []⟩,
  ⟨[(some 1, 314)], [], []⟩,
  ⟨[(some 6, 319), (some 5, 319), (some 4, 319)], [], []⟩,
  ⟨[(none, 320)], [], []⟩,
  ⟨[(none, 323)], [], []⟩,
  ⟨[(none, 332)], [], []⟩,
  ⟨[(none, 328)], [], []⟩,
  ⟨[(none, 324)], [], []⟩,
  ⟨[(some 4, 321), (some 5, 322), (some 6, 337), (some 5, 337), (some 4, 337)], [], []⟩,
  ⟨[(some 11, 339), (some 10, 339), (some 11, 338), (some 10, 338)], [], []⟩,
  ⟨[(some 7, 339), (some 7, 338)], [], []⟩,
  ⟨[(some 6, 341), (some 5, 341), (some 4, 341), (some 6, 340), (some 5, 340), (some 4, 340)], [], []⟩,
  ⟨[(some 3, 325), (some 3, 326)], [], []⟩,
  ⟨[(some 12, 341), (some 8, 341), (some 9, 341), (some 10, 341), (some 11, 341), (some 7, 341), (some 12, 340), (some 8, 340), (some 9, 340), (some 10, 340), (some 11, 340), (some 7, 340)], [], []⟩,
  ⟨[(some 10, 327)], [], []⟩,
  ⟨[(some 15, 342)], [], []⟩,
  ⟨[(some 3, 329), (some 3, 330)], [], []⟩,
  ⟨[(some 15, 339), (some 13, 339), (some 14, 339), (some 12, 339), (some 8, 339), (some 9, 339), (some 10, 339), (some 11, 339), (some 7, 339), (some 15, 343), (some 13, 343), (some 14, 343), (some 12, 343), (some 8, 343), (some 9, 343), (some 10, 343), (some 11, 343), (some 7, 343)], [], []⟩,
  ⟨[(some 13, 331), (some 10, 331)], [], []⟩,
  ⟨[(some 15, 344)], [], []⟩,
  ⟨[(some 8, 339), (some 9, 339), (some 10, 339), (some 11, 339), (some 7, 339), (some 8, 343), (some 9, 343), (some 10, 343), (some 11, 343), (some 7, 343), (some 3, 333), (some 3, 334), (some 3, 335)], [], []⟩,
  ⟨[(some 12, 339), (some 12, 343)], [], []⟩,
  ⟨[(some 8, 347), (some 9, 347), (some 8, 346), (some 9, 346), (some 8, 345), (some 9, 345)], [], []⟩,
  ⟨[(some 10, 336)], [], []⟩,
  ⟨[(some 15, 344)], [], []⟩,
  ⟨[(none, 450)], [], []⟩,
  ⟨[(none, 440)], [], []⟩,
  ⟨[(none, 456)], [], []⟩,
  ⟨[(none, 374)], [], []⟩,
  ⟨[(none, 401)], [], []⟩,
  ⟨[(none, 402)], [], []⟩,
  ⟨[(none, 429)], [], []⟩,
  ⟨[(none, 457)], [], []⟩,
  ⟨[(none, 579)], [], []⟩,
  ⟨[(none, 484)], [], []⟩,
  ⟨[(none, 511)], [], []⟩,
  ⟨[(some 9, 356), (some 8, 356), (some 1, 354), (some 1, 353), (some 9, 352), (some 8, 352), (some 1, 350), (some 1, 349), (none, 601)], [], []⟩,
  ⟨[(some 16, 360)], [], []⟩,
  ⟨[(some 2, 351)], [], []⟩,
  ⟨[(some 1, 360)], [], []⟩,
  ⟨[(some 1, 360)], [], []⟩,
  ⟨[(some 4, 361), (some 5, 361), (some 6, 361)], [], []⟩,
  ⟨[(some 4, 355), (some 5, 355), (some 6, 355)], [], []⟩,
  ⟨[(some 7, 362), (some 11, 362), (some 10, 362), (some 9, 362), (some 8, 362)], [], []⟩,
  ⟨[(some 1, 357)], [], []⟩,
  ⟨[(some 4, 362), (some 5, 362), (some 6, 362)], [], []⟩,
  ⟨[(some 1, 359), (some 1, 360), (none, 602)], [], []⟩,
  ⟨[(some 4, 362), (some 5, 362), (some 6, 362)], [], []⟩,
  ⟨[(none, 363)], [], []⟩,
  ⟨[(none, 364)], [], []⟩,
  ⟨[(none, 368)], [], []⟩,
  ⟨[(some 4, 372), (some 5, 372), (some 6, 372)], [], []⟩,
  ⟨[(some 7, 372), (some 11, 372), (some 10, 372), (some 9, 372), (some 8, 372), (some 3, 366), (some 3, 365)], [], []⟩,
  ⟨[(some 12, 372)], [], []⟩,
  ⟨[(some 10, 367)], [], []⟩,
  ⟨[(some 15, 373)], [], []⟩,
  ⟨[(some 3, 370), (some 3, 369)], [], []⟩,
  ⟨[(some 7, 372), (some 11, 372), (some 10, 372), (some 9, 372), (some 8, 372), (some 12, 372), (some 14, 372), (some 13, 372), (some 15, 372)], [], []⟩,
  ⟨[(some 10, 371), (some 13, 371)], [], []⟩,
  ⟨[(some 15, 373)], [], []⟩,
  ⟨[(none, 348), (none, 374)], [], []⟩,
  ⟨[(none, 358), (none, 397)], [], []⟩,
  ⟨[(some 1, 382), (some 9, 379), (some 8, 379), (some 9, 378), (some 8, 378), (some 1, 377), (some 1, 375)], [], []⟩,
  ⟨[(some 2, 376)], [], []⟩,
  ⟨[(some 1, 400)], [], []⟩,
  ⟨[(some 16, 400)], [], []⟩,
  ⟨[(some 1, 400)], [], []⟩,
  ⟨[(some 1, 380)], [], []⟩,
  ⟨[(some 4, 381), (some 5, 381), (some 6, 381)], [], []⟩,
  ⟨[(some 1, 400)], [], []⟩,
  ⟨[(some 4, 383), (some 5, 383), (some 6, 383)], [], []⟩,
  ⟨[(some 7, 384), (some 11, 384), (some 10, 384), (some 9, 384), (some 8, 384)], [], []⟩,
  ⟨[(some 1, 400)], [], []⟩,
  ⟨[(some 1, 392), (some 9, 389), (some 8, 389), (some 1, 388), (some 1, 386)], [], []⟩,
  ⟨[(some 2, 387)], [], []⟩,
  ⟨[(some 1, 400)], [], []⟩,
  ⟨[(some 16, 400)], [], []⟩,
  ⟨[(some 1, 390)], [], []⟩,
  ⟨[(some 4, 391), (some 5, 391), (some 6, 391)], [], []⟩,
  ⟨[(some 1, 400)], [], []⟩,
  ⟨[(some 4, 393), (some 5, 393), (some 6, 393)], [], []⟩,
  ⟨[(some 7, 394), (some 11, 394), (some 10, 394), (some 9, 394), (some 8, 394)], [], []⟩,
  ⟨[(some 1, 400)], [], []⟩,
  ⟨[(some 9, 396), (some 8, 396)], [], []⟩,
  ⟨[(some 1, 400)], [], []⟩,
  ⟨[(some 1, 398), (some 1, 400)], [], []⟩,
  ⟨[(some 4, 399), (some 5, 399), (some 6, 399)], [], []⟩,
  ⟨[(some 1, 400)], [], []⟩,
  ⟨[(none, 637)], [], []⟩,
  ⟨[(none, 348)], [], []⟩,
  ⟨[(none, 358), (none, 397)], [], []⟩,
  ⟨[(some 9, 411), (some 8, 411), (some 1, 409), (some 1, 408), (some 9, 407), (some 8, 407), (some 1, 405), (some 1, 404), (none, 610)], [], []⟩,
  ⟨[(some 16, 415)], [], []⟩,
  ⟨[(some 2, 406)], [], []⟩,
  ⟨[(some 1, 415)], [], []⟩,
  ⟨[(some 1, 415)], [], []⟩,
  ⟨[(some 4, 416), (some 5, 416), (some 6, 416)], [], []⟩,
  ⟨[(some 4, 410), (some 5, 410), (some 6, 410)], [], []⟩,
  ⟨[(some 7, 417), (some 11, 417), (some 10, 417), (some 9, 417), (some 8, 417)], [], []⟩,
  ⟨[(some 1, 412)], [], []⟩,
  ⟨[(some 4, 417), (some 5, 417), (some 6, 417)], [], []⟩,
  ⟨[(some 1, 414), (some 1, 415), (none, 611)], [], []⟩,
  ⟨[(some 4, 417), (some 5, 417), (some 6, 417)], [], []⟩,
  ⟨[(none, 418)], [], []⟩,
  ⟨[(none, 419)], [], []⟩,
  ⟨[(none, 423)], [], []⟩,
  ⟨[(some 4, 427), (some 5, 427), (some 6, 427)], [], []⟩,
  ⟨[(some 7, 427), (some 11, 427), (some 10, 427), (some 9, 427), (some 8, 427), (some 3, 421), (some 3, 420)], [], []⟩,
  ⟨[(some 12, 427)], [], []⟩,
  ⟨[(some 10, 422)], [], []⟩,
  ⟨[(some 15, 428)], [], []⟩,
  ⟨[(some 3, 425), (some 3, 424)], [], []⟩,
  ⟨[(some 7, 427), (some 11, 427), (some 10, 427), (some 9, 427), (some 8, 427), (some 12, 427), (some 14, 427), (some 13, 427), (some 15, 427)], [], []⟩,
  ⟨[(some 10, 426), (some 13, 426)], [], []⟩,
  ⟨[(some 15, 428)], [], []⟩,
  ⟨[(none, 403), (none, 429)], [], []⟩,
  ⟨[(none, 413), (none, 452)], [], []⟩,
  ⟨[(some 1, 437), (some 9, 434), (some 8, 434), (some 9, 433), (some 8, 433), (some 1, 432), (some 1, 430)], [], []⟩,
  ⟨[(some 2, 431)], [], []⟩,
  ⟨[(some 1, 455)], [], []⟩,
  ⟨[(some 16, 455)], [], []⟩,
  ⟨[(some 1, 455)], [], []⟩,
  ⟨[(some 1, 435)], [], []⟩,
  ⟨[(some 4, 436), (some 5, 436), (some 6, 436)], [], []⟩,
  ⟨[(some 1, 455)], [], []⟩,
  ⟨[(some 4, 438), (some 5, 438), (some 6, 438)], [], []⟩,
  ⟨[(some 7, 439), (some 11, 439), (some 10, 439), (some 9, 439), (some 8, 439)], [], []⟩,
  ⟨[(some 1, 455)], [], []⟩,
  ⟨[(some 1, 447), (some 9, 444), (some 8, 444), (some 1, 443), (some 1, 441)], [], []⟩,
  ⟨[(some 2, 442)], [], []⟩,
  ⟨[(some 1, 455)], [], []⟩,
  ⟨[(some 16, 455)], [], []⟩,
  ⟨[(some 1, 445)], [], []⟩,
  ⟨[(some 4, 446), (some 5, 446), (some 6, 446)], [], []⟩,
  ⟨[(some 1, 455)], [], []⟩,
  ⟨[(some 4, 448), (some 5, 448), (some 6, 448)], [], []⟩,
  ⟨[(some 7, 449), (some 11, 449), (some 10, 449), (some 9, 449), (some 8, 449)], [], []⟩,
  ⟨[(some 1, 455)], [], []⟩,
  ⟨[(some 9, 451), (some 8, 451)], [], []⟩,
  ⟨[(some 1, 455)], [], []⟩,
  ⟨[(some 1, 453), (some 1, 455)], [], []⟩,
  ⟨[(some 4, 454), (some 5, 454), (some 6, 454)], [], []⟩,
  ⟨[(some 1, 455)], [], []⟩,
  ⟨[(none, 638)], [], []⟩,
  ⟨[(none, 403)], [], []⟩,
  ⟨[(none, 413), (none, 452)], [], []⟩,
  ⟨[(some 9, 466), (some 8, 466), (some 1, 464), (some 1, 463), (some 9, 462), (some 8, 462), (some 1, 460), (some 1, 459), (none, 619)], [], []⟩,
  ⟨[(some 16, 470)], [], []⟩,
  ⟨[(some 2, 461)], [], []⟩,
  ⟨[(some 1, 470)], [], []⟩,
  ⟨[(some 1, 470)], [], []⟩,
  ⟨[(some 4, 471), (some 5, 471), (some 6, 471)], [], []⟩,
  ⟨[(some 4, 465), (some 5, 465), (some 6, 465)], [], []⟩,
  ⟨[(some 7, 472), (some 11, 472), (some 10, 472), (some 9, 472), (some 8, 472)], [], []⟩,
  ⟨[(some 1, 467)], [], []⟩,
  ⟨[(some 4, 472), (some 5, 472), (some 6, 472)], [], []⟩,
  ⟨[(some 1, 469), (some 1, 470), (none, 620)], [], []⟩,
  ⟨[(some 4, 472), (some 5, 472), (some 6, 472)], [], []⟩,
  ⟨[(none, 473)], [], []⟩,
  ⟨[(none, 474)], [], []⟩,
  ⟨[(none, 478)], [], []⟩,
  ⟨[(some 4, 482), (some 5, 482), (some 6, 482)], [], []⟩,
  ⟨[(some 7, 482), (some 11, 482), (some 10, 482), (some 9, 482), (some 8, 482), (some 3, 476), (some 3, 475)], [], []⟩,
  ⟨[(some 12, 482)], [], []⟩,
  ⟨[(some 10, 477)], [], []⟩,
  ⟨[(some 15, 483)], [], []⟩,
  ⟨[(some 3, 480), (some 3, 479)], [], []⟩,
  ⟨[(some 7, 482), (some 11, 482), (some 10, 482), (some 9, 482), (some 8, 482), (some 12, 482), (some 14, 482), (some 13, 482), (some 15, 482)], [], []⟩,
  ⟨[(some 10, 481), (some 13, 481)], [], []⟩,
  ⟨[(some 15, 483)], [], []⟩,
  ⟨[(none, 458), (none, 484)], [], []⟩,
  ⟨[(none, 468), (none, 507)], [], []⟩,
  ⟨[(some 1, 492), (some 9, 489), (some 8, 489), (some 9, 488), (some 8, 488), (some 1, 487), (some 1, 485)], [], []⟩,
  ⟨[(some 2, 486)], [], []⟩,
  ⟨[(some 1, 510)], [], []⟩,
  ⟨[(some 16, 510)], [], []⟩,
  ⟨[(some 1, 510)], [], []⟩,
  ⟨[(some 1, 490)], [], []⟩,
  ⟨[(some 4, 491), (some 5, 491), (some 6, 491)], [], []⟩,
  ⟨[(some 1, 510)], [], []⟩,
  ⟨[(some 4, 493), (some 5, 493), (some 6, 493)], [], []⟩,
  ⟨[(some 7, 494), (some 11, 494), (some 10, 494), (some 9, 494), (some 8, 494)], [], []⟩,
  ⟨[(some 1, 510)], [], []⟩,
  ⟨[(some 1, 502), (some 9, 499), (some 8, 499), (some 1, 498), (some 1, 496)], [], []⟩,
  ⟨[(some 2, 497)], [], []⟩,
  ⟨[(some 1, 510)], [], []⟩,
  ⟨[(some 16, 510)], [], []⟩,
  ⟨[(some 1, 500)], [], []⟩,
  ⟨[(some 4, 501), (some 5, 501), (some 6, 501)], [], []⟩,
  ⟨[(some 1, 510)], [], []⟩,
  ⟨[(some 4, 503), (some 5, 503), (some 6, 503)], [], []⟩,
  ⟨[(some 7, 504), (some 11, 504), (some 10, 504), (some 9, 504), (some 8, 504)], [], []⟩,
  ⟨[(some 1, 510)], [], []⟩,
  ⟨[(some 9, 506), (some 8, 506)], [], []⟩,
  ⟨[(some 1, 510)], [], []⟩,
  ⟨[(some 1, 508), (some 1, 510)], [], []⟩,
  ⟨[(some 4, 509), (some 5, 509), (some 6, 509)], [], []⟩,
  ⟨[(some 1, 510)], [], []⟩,
  ⟨[(none, 639)], [], []⟩,
  ⟨[(none, 458)], [], []⟩,
  ⟨[(none, 468), (none, 507)], [], []⟩,
  ⟨[(some 1, 514), (some 1, 515), (none, 593)], [], []⟩,
  ⟨[(some 4, 516), (some 5, 516), (some 6, 516)], [], []⟩,
  ⟨[(none, 517)], [], []⟩,
  ⟨[(none, 518)], [], []⟩,
  ⟨[(some 4, 522), (some 5, 522), (some 6, 522)], [], []⟩,
  ⟨[(some 3, 520), (some 3, 519)], [], []⟩,
  ⟨[(some 7, 522), (some 11, 522), (some 10, 522), (some 9, 522), (some 8, 522), (some 12, 522)], [], []⟩,
  ⟨[(some 10, 521), (some 11, 521)], [], []⟩,
  ⟨[(some 15, 523)], [], []⟩,
  ⟨[(none, 550), (none, 577)], [], []⟩,
  ⟨[(none, 578)], [], []⟩,
  ⟨[(some 1, 525), (some 1, 526), (some 8, 528), (some 9, 528), (some 1, 529), (some 1, 530), (some 8, 532), (some 9, 532), (none, 628)], [], []⟩,
  ⟨[(some 16, 536)], [], []⟩,
  ⟨[(some 2, 527)], [], []⟩,
  ⟨[(some 1, 536)], [], []⟩,
  ⟨[(some 1, 536)], [], []⟩,
  ⟨[(some 6, 537), (some 5, 537), (some 4, 537)], [], []⟩,
  ⟨[(some 6, 531), (some 5, 531), (some 4, 531)], [], []⟩,
  ⟨[(some 8, 538), (some 9, 538), (some 10, 538), (some 11, 538), (some 7, 538)], [], []⟩,
  ⟨[(some 1, 533)], [], []⟩,
  ⟨[(some 6, 538), (some 5, 538), (some 4, 538)], [], []⟩,
  ⟨[(some 1, 536), (some 1, 535), (none, 629)], [], []⟩,
  ⟨[(some 6, 538), (some 5, 538), (some 4, 538)], [], []⟩,
  ⟨[(none, 539)], [], []⟩,
  ⟨[(none, 540)], [], []⟩,
  ⟨[(none, 544)], [], []⟩,
  ⟨[(some 6, 548), (some 5, 548), (some 4, 548)], [], []⟩,
  ⟨[(some 3, 541), (some 3, 542), (some 8, 548), (some 9, 548), (some 10, 548), (some 11, 548), (some 7, 548)], [], []⟩,
  ⟨[(some 12, 548)], [], []⟩,
  ⟨[(some 10, 543)], [], []⟩,
  ⟨[(some 15, 549)], [], []⟩,
  ⟨[(some 3, 545), (some 3, 546)], [], []⟩,
  ⟨[(some 15, 548), (some 13, 548), (some 14, 548), (some 12, 548), (some 8, 548), (some 9, 548), (some 10, 548), (some 11, 548), (some 7, 548)], [], []⟩,
  ⟨[(some 13, 547), (some 10, 547)], [], []⟩,
  ⟨[(some 15, 549)], [], []⟩,
  ⟨[(none, 550), (none, 524)], [], []⟩,
  ⟨[(none, 573), (none, 534)], [], []⟩,
  ⟨[(some 1, 551), (some 1, 553), (some 8, 554), (some 9, 554), (some 8, 555), (some 9, 555), (some 1, 558)], [], []⟩,
  ⟨[(some 2, 552)], [], []⟩,
  ⟨[(some 1, 576)], [], []⟩,
  ⟨[(some 16, 576)], [], []⟩,
  ⟨[(some 1, 576)], [], []⟩,
  ⟨[(some 1, 556)], [], []⟩,
  ⟨[(some 6, 557), (some 5, 557), (some 4, 557)], [], []⟩,
  ⟨[(some 1, 576)], [], []⟩,
  ⟨[(some 6, 559), (some 5, 559), (some 4, 559)], [], []⟩,
  ⟨[(some 8, 560), (some 9, 560), (some 10, 560), (some 11, 560), (some 7, 560)], [], []⟩,
  ⟨[(some 1, 576)], [], []⟩,
  ⟨[(some 1, 562), (some 1, 564), (some 8, 565), (some 9, 565), (some 1, 568)], [], []⟩,
  ⟨[(some 2, 563)], [], []⟩,
  ⟨[(some 1, 576)], [], []⟩,
  ⟨[(some 16, 576)], [], []⟩,
  ⟨[(some 1, 566)], [], []⟩,
  ⟨[(some 6, 567), (some 5, 567), (some 4, 567)], [], []⟩,
  ⟨[(some 1, 576)], [], []⟩,
  ⟨[(some 6, 569), (some 5, 569), (some 4, 569)], [], []⟩,
  ⟨[(some 8, 570), (some 9, 570), (some 10, 570), (some 11, 570), (some 7, 570)], [], []⟩,
  ⟨[(some 1, 576)], [], []⟩,
  ⟨[(some 8, 572), (some 9, 572)], [], []⟩,
  ⟨[(some 1, 576)], [], []⟩,
  ⟨[(some 1, 576), (some 1, 574)], [], []⟩,
  ⟨[(some 6, 575), (some 5, 575), (some 4, 575)], [], []⟩,
  ⟨[(some 1, 576)], [], []⟩,
  ⟨[(none, 580)], [], []⟩,
  ⟨[(none, 524)], [], []⟩,
  ⟨[(none, 573), (none, 534)], [], []⟩,
  ⟨[(none, 513)], [], []⟩,
  ⟨[(none, 640)], [], []⟩,
  ⟨[(none, 299)], [], []⟩,
  ⟨[(some 6, 583)], [], []⟩,
  ⟨[(some 9, 584), (some 8, 584)], [], []⟩,
  ⟨[(some 1, 588), (some 1, 585)], [], []⟩,
  ⟨[(some 2, 586)], [], []⟩,
  ⟨[(some 1, 587)], [], []⟩,
  ⟨[(some 4, 590), (some 5, 590), (some 6, 590)], [], []⟩,
  ⟨[(some 16, 589)], [], []⟩,
  ⟨[(some 4, 590), (some 5, 590), (some 6, 590)], [], []⟩,
  ⟨[(none, 319)], [], []⟩,
  ⟨[(some 6, 592)], [], []⟩,
  ⟨[(some 9, 593), (some 8, 593)], [], []⟩,
  ⟨[(some 1, 597), (some 1, 594)], [], []⟩,
  ⟨[(some 2, 595)], [], []⟩,
  ⟨[(some 1, 596)], [], []⟩,
  ⟨[(some 4, 599), (some 5, 599), (some 6, 599)], [], []⟩,
  ⟨[(some 16, 598)], [], []⟩,
  ⟨[(some 4, 599), (some 5, 599), (some 6, 599)], [], []⟩,
  ⟨[(none, 516)], [], []⟩,
  ⟨[(some 6, 601)], [], []⟩,
  ⟨[(some 9, 602), (some 8, 602)], [], []⟩,
  ⟨[(some 1, 606), (some 1, 603)], [], []⟩,
  ⟨[(some 2, 604)], [], []⟩,
  ⟨[(some 1, 605)], [], []⟩,
  ⟨[(some 4, 608), (some 5, 608), (some 6, 608)], [], []⟩,
  ⟨[(some 16, 607)], [], []⟩,
  ⟨[(some 4, 608), (some 5, 608), (some 6, 608)], [], []⟩,
  ⟨[(none, 362)], [], []⟩,
  ⟨[(some 6, 610)], [], []⟩,
  ⟨[(some 9, 611), (some 8, 611)], [], []⟩,
  ⟨[(some 1, 615), (some 1, 612)], [], []⟩,
  ⟨[(some 2, 613)], [], []⟩,
  ⟨[(some 1, 614)], [], []⟩,
  ⟨[(some 4, 617), (some 5, 617), (some 6, 617)], [], []⟩,
  ⟨[(some 16, 616)], [], []⟩,
  ⟨[(some 4, 617), (some 5, 617), (some 6, 617)], [], []⟩,
  ⟨[(none, 417)], [], []⟩,
  ⟨[(some 6, 619)], [], []⟩,
  ⟨[(some 9, 620), (some 8, 620)], [], []⟩,
  ⟨[(some 1, 624), (some 1, 621)], [], []⟩,
  ⟨[(some 2, 622)], [], []⟩,
  ⟨[(some 1, 623)], [], []⟩,
  ⟨[(some 4, 626), (some 5, 626), (some 6, 626)], [], []⟩,
  ⟨[(some 16, 625)], [], []⟩,
  ⟨[(some 4, 626), (some 5, 626), (some 6, 626)], [], []⟩,
  ⟨[(none, 472)], [], []⟩,
  ⟨[(some 6, 628)], [], []⟩,
  ⟨[(some 9, 629), (some 8, 629)], [], []⟩,
  ⟨[(some 1, 633), (some 1, 630)], [], []⟩,
  ⟨[(some 2, 631)], [], []⟩,
  ⟨[(some 1, 632)], [], []⟩,
  ⟨[(some 4, 635), (some 5, 635), (some 6, 635)], [], []⟩,
  ⟨[(some 16, 634)], [], []⟩,
  ⟨[(some 4, 635), (some 5, 635), (some 6, 635)], [], []⟩,
  ⟨[(none, 538)], [], []⟩,
  ⟨[(none, 581)], [], []⟩,
  ⟨[], [c!"TAG_CULTURAL_LUJVO_0"], []⟩,
  ⟨[], [c!"TAG_CULTURAL_LUJVO_1"], []⟩,
  ⟨[], [c!"TAG_CULTURAL_LUJVO_1T"], []⟩,
  ⟨[], [c!"TAG_CULTURAL_LUJVO_TAIL_OK"], []⟩,
  ⟨[(some 8, 642), (some 9, 642), (some 10, 642), (some 11, 642), (some 7, 642), (some 8, 644), (some 9, 644), (some 10, 644), (some 11, 644), (some 7, 644), (some 8, 647), (some 9, 647), (some 10, 647), (some 11, 647), (some 7, 647), (some 8, 649), (some 9, 649), (some 10, 649), (some 11, 649), (some 7, 649)], [], []⟩,
  ⟨[(some 1, 643)], [], []⟩,
  ⟨[(some 16, 651), (some 17, 651), (some 18, 651), (some 16, 685), (some 17, 685), (some 18, 685)], [], []⟩,
  ⟨[(some 1, 645)], [], []⟩,
  ⟨[(some 2, 646)], [], []⟩,
  ⟨[(some 1, 651), (some 1, 685)], [], []⟩,
  ⟨[(some 1, 648)], [], []⟩,
  ⟨[(some 6, 641), (some 5, 641), (some 4, 641)], [], []⟩,
  ⟨[(some 8, 650), (some 9, 650)], [], []⟩,
  ⟨[(some 1, 651), (some 1, 685)], [], []⟩,
  ⟨[(some 6, 652), (some 5, 652), (some 4, 652), (some 6, 654), (some 5, 654), (some 4, 654), (some 6, 657), (some 5, 657), (some 4, 657), (some 6, 659), (some 5, 659), (some 4, 659)], [], []⟩,
  ⟨[(some 1, 653)], [], []⟩,
  ⟨[(some 16, 651), (some 17, 651), (some 18, 651), (some 16, 685), (some 17, 685), (some 18, 685)], [], []⟩,
  ⟨[(some 1, 655)], [], []⟩,
  ⟨[(some 2, 656)], [], []⟩,
  ⟨[(some 1, 651), (some 1, 685)], [], []⟩,
  ⟨[(some 8, 658), (some 9, 658)], [], []⟩,
  ⟨[(some 1, 651), (some 1, 685)], [], []⟩,
  ⟨[(some 1, 660)], [], []⟩,
  ⟨[(some 6, 641), (some 5, 641), (some 4, 641)], [], []⟩,
  ⟨[(some 4, 662), (some 4, 665), (some 4, 669), (some 4, 672), (some 5, 675), (some 5, 678), (some 5, 682)], [], []⟩,
  ⟨[(some 8, 663), (some 9, 663), (some 10, 663), (some 11, 663), (some 7, 663)], [], []⟩,
  ⟨[(some 1, 664)], [], []⟩,
  ⟨[(some 16, 651), (some 17, 651), (some 18, 651), (some 16, 685), (some 17, 685), (some 18, 685)], [], []⟩,
  ⟨[(some 8, 666), (some 9, 666), (some 10, 666), (some 11, 666), (some 7, 666)], [], []⟩,
  ⟨[(some 1, 667)], [], []⟩,
  ⟨[(some 2, 668)], [], []⟩,
  ⟨[(some 1, 651), (some 1, 685)], [], []⟩,
  ⟨[(some 8, 670), (some 9, 670), (some 10, 670), (some 11, 670), (some 7, 670)], [], []⟩,
  ⟨[(some 1, 671)], [], []⟩,
  ⟨[(some 6, 641), (some 5, 641), (some 4, 641)], [], []⟩,
  ⟨[(some 8, 673), (some 9, 673), (some 10, 673), (some 11, 673), (some 7, 673)], [], []⟩,
  ⟨[(some 8, 674), (some 9, 674)], [], []⟩,
  ⟨[(some 1, 651), (some 1, 685)], [], []⟩,
  ⟨[(some 7, 676)], [], []⟩,
  ⟨[(some 1, 677)], [], []⟩,
  ⟨[(some 16, 651), (some 17, 651), (some 18, 651), (some 16, 685), (some 17, 685), (some 18, 685)], [], []⟩,
  ⟨[(some 7, 679)], [], []⟩,
  ⟨[(some 1, 680)], [], []⟩,
  ⟨[(some 2, 681)], [], []⟩,
  ⟨[(some 1, 651), (some 1, 685)], [], []⟩,
  ⟨[(some 7, 683)], [], []⟩,
  ⟨[(some 1, 684)], [], []⟩,
  ⟨[(some 6, 641), (some 5, 641), (some 4, 641)], [], []⟩,
  ⟨[(none, 686)], [], []⟩,
  ⟨[], [c!"TAG_LUJVO_NO_Y_BAD_VOWELS"], []⟩,
  ⟨[(some 6, 688), (some 5, 688), (some 4, 688), (some 6, 690), (some 5, 690), (some 4, 690), (some 6, 693), (some 5, 693), (some 4, 693), (some 6, 695), (some 5, 695), (some 4, 695), (some 6, 697), (some 5, 697), (some 4, 697), (some 6, 702), (some 5, 702), (some 4, 702)], [], []⟩,
  ⟨[(some 1, 689)], [], []⟩,
  ⟨[(some 16, 661), (some 17, 661), (some 18, 661)], [], []⟩,
  ⟨[(some 1, 691)], [], []⟩,
  ⟨[(some 2, 692)], [], []⟩,
  ⟨[(some 1, 661)], [], []⟩,
  ⟨[(some 8, 694), (some 9, 694)], [], []⟩,
  ⟨[(some 1, 651)], [], []⟩,
  ⟨[(some 1, 696)], [], []⟩,
  ⟨[(some 6, 641), (some 5, 641), (some 4, 641)], [], []⟩,
  ⟨[(some 1, 698)], [], []⟩,
  ⟨[(some 16, 699), (some 17, 699), (some 18, 699)], [], []⟩,
  ⟨[(some 6, 700), (some 5, 700), (some 4, 700)], [], []⟩,
  ⟨[(some 8, 701), (some 9, 701)], [], []⟩,
  ⟨[(some 1, 685)], [], []⟩,
  ⟨[(some 1, 703)], [], []⟩,
  ⟨[(some 2, 704)], [], []⟩,
  ⟨[(some 1, 705)], [], []⟩,
  ⟨[(some 6, 706), (some 5, 706), (some 4, 706)], [], []⟩,
  ⟨[(some 8, 707), (some 9, 707)], [], []⟩,
  ⟨[(some 1, 685)], [], []⟩,
  ⟨[(some 1, 713), (some 1, 712), (some 1, 709), (some 6, 711), (some 5, 711), (some 4, 711), (some 6, 714), (some 5, 714), (some 4, 714), (some 3, 716)], [], []⟩,
  ⟨[(some 17, 710)], [], []⟩,
  ⟨[(none, 719), (some 6, 711), (some 5, 711), (some 4, 711)], [], []⟩,
  ⟨[(some 1, 713), (some 1, 712)], [], []⟩,
  ⟨[(some 16, 713), (some 16, 712)], [], []⟩,
  ⟨[(some 6, 711), (some 5, 711), (some 4, 711), (some 6, 714), (some 5, 714), (some 4, 714), (some 2, 711), (none, 719)], [], []⟩,
  ⟨[(some 3, 715)], [], []⟩,
  ⟨[(none, 721), (some 15, 714), (some 14, 714), (some 13, 714), (some 7, 714), (some 12, 714), (some 11, 714), (some 10, 714), (some 9, 714), (some 8, 714)], [], []⟩,
  ⟨[(some 20, 717), (none, 721), (some 2, 718)], [], []⟩,
  ⟨[(some 20, 717), (none, 721)], [], []⟩,
  ⟨[(some 3, 721)], [], []⟩,
  ⟨[(none, 687), (none, 1087), (none, 636), (none, 294), (none, 0), (none, 720)], [], []⟩,
  ⟨[], [c!"TAG_CMAVOS"], []⟩,
  ⟨[(none, 722)], [], []⟩,
  ⟨[], [c!"TAG_CMAVOS_END_CY"], []⟩,
  ⟨[(some 6, 725), (some 5, 725), (some 4, 725), (some 1, 726), (some 3, 724)], [], []⟩,
  ⟨[(some 6, 725), (some 5, 725), (some 4, 725)], [], []⟩,
  ⟨[(some 1, 726), (some 3, 728), (some 13, 725), (some 14, 725), (some 8, 725), (some 9, 725), (some 10, 725), (some 11, 725), (some 7, 725), (none, 730)], [], []⟩,
  ⟨[(some 19, 726), (some 16, 726), (some 17, 726), (some 18, 726), (some 6, 725), (some 5, 725), (some 4, 725), (some 2, 727)], [], []⟩,
  ⟨[(some 3, 726), (some 1, 726)], [], []⟩,
  ⟨[(some 2, 727), (some 19, 726), (some 20, 728), (some 15, 725), (some 12, 725), (some 13, 725), (some 14, 725), (some 8, 725), (some 9, 725), (some 10, 725), (some 11, 725), (some 7, 725), (some 10, 729)], [], []⟩,
  ⟨[(some 15, 725)], [], []⟩,
  ⟨[(none, 731)], [], []⟩,
  ⟨[], [c!"TAG_CMENE"], []⟩,
  ⟨[(some 6, 733), (some 6, 734), (some 6, 735), (some 6, 737), (some 6, 739), (some 6, 742)], [], []⟩,
  ⟨[(some 8, 746)], [], []⟩,
  ⟨[(some 9, 746)], [], []⟩,
  ⟨[(some 8, 736)], [], []⟩,
  ⟨[(some 8, 746)], [], []⟩,
  ⟨[(some 8, 738)], [], []⟩,
  ⟨[(some 9, 746)], [], []⟩,
  ⟨[(some 8, 740)], [], []⟩,
  ⟨[(some 9, 741)], [], []⟩,
  ⟨[(some 9, 746)], [], []⟩,
  ⟨[(some 8, 743)], [], []⟩,
  ⟨[(some 8, 744)], [], []⟩,
  ⟨[(some 9, 745)], [], []⟩,
  ⟨[(some 9, 746)], [], []⟩,
  ⟨[(none, 747)], [], []⟩,
  ⟨[(some 1, 758), (some 1, 748), (some 1, 749), (some 1, 751), (some 1, 753)], [], []⟩,
  ⟨[(some 16, 758), (some 17, 758), (some 18, 758)], [], []⟩,
  ⟨[(some 16, 750), (some 17, 750), (some 18, 750)], [], []⟩,
  ⟨[(some 16, 756), (some 17, 756), (some 18, 756)], [], []⟩,
  ⟨[(some 2, 752)], [], []⟩,
  ⟨[(some 1, 756)], [], []⟩,
  ⟨[(some 16, 754), (some 17, 754), (some 18, 754)], [], []⟩,
  ⟨[(some 2, 755)], [], []⟩,
  ⟨[(some 1, 756)], [], []⟩,
  ⟨[(some 2, 757), (some 16, 756), (some 17, 756), (some 18, 756), (none, 759)], [], []⟩,
  ⟨[(some 1, 756)], [], []⟩,
  ⟨[(none, 760)], [], []⟩,
  ⟨[(none, 760), (none, 787)], [], []⟩,
  ⟨[(some 6, 761), (some 5, 761), (some 4, 761)], [], []⟩,
  ⟨[(some 9, 766), (some 11, 766), (some 14, 766), (some 7, 766), (some 8, 762), (some 10, 762), (some 13, 762), (none, 772)], [], []⟩,
  ⟨[(some 9, 766), (some 11, 766), (some 14, 766), (some 7, 766), (some 8, 763), (some 10, 763), (some 13, 763), (none, 772)], [], []⟩,
  ⟨[(some 9, 764), (some 11, 764), (some 14, 764), (some 7, 764), (some 9, 765), (some 11, 765), (some 14, 765), (some 7, 765), (none, 772)], [], []⟩,
  ⟨[(some 9, 766), (some 11, 766), (some 14, 766), (some 7, 766)], [], []⟩,
  ⟨[(some 8, 761), (some 10, 761), (some 13, 761)], [], []⟩,
  ⟨[(some 9, 766), (some 11, 766), (some 14, 766), (some 7, 766), (some 8, 761), (some 10, 761), (some 13, 761), (none, 772)], [], []⟩,
  ⟨[(some 6, 768), (some 5, 768), (some 4, 768), (some 6, 769), (some 5, 769), (some 4, 769)], [], []⟩,
  ⟨[(some 9, 766), (some 11, 766), (some 14, 766), (some 7, 766)], [], []⟩,
  ⟨[(some 8, 762), (some 10, 762), (some 13, 762)], [], []⟩,
  ⟨[(none, 761)], [], []⟩,
  ⟨[(none, 766)], [], []⟩,
  ⟨[(none, 773)], [], []⟩,
  ⟨[(some 1, 784), (some 1, 774), (some 1, 775), (some 1, 777), (some 1, 779)], [], []⟩,
  ⟨[(some 16, 784), (some 17, 784), (some 18, 784)], [], []⟩,
  ⟨[(some 16, 776), (some 17, 776), (some 18, 776)], [], []⟩,
  ⟨[(some 16, 782), (some 17, 782), (some 18, 782)], [], []⟩,
  ⟨[(some 2, 778)], [], []⟩,
  ⟨[(some 1, 782)], [], []⟩,
  ⟨[(some 16, 780), (some 17, 780), (some 18, 780)], [], []⟩,
  ⟨[(some 2, 781)], [], []⟩,
  ⟨[(some 1, 782)], [], []⟩,
  ⟨[(some 2, 783), (some 16, 782), (some 17, 782), (some 18, 782), (none, 785)], [], []⟩,
  ⟨[(some 1, 782)], [], []⟩,
  ⟨[(none, 760), (none, 787)], [], []⟩,
  ⟨[(none, 760), (none, 787)], [], []⟩,
  ⟨[(none, 732), (some 4, 788), (some 5, 788), (some 6, 788)], [], []⟩,
  ⟨[(none, 1088)], [], []⟩,
  ⟨[(none, 909)], [], []⟩,
  ⟨[(some 6, 790), (some 5, 790), (some 4, 790)], [], []⟩,
  ⟨[(some 9, 795), (some 11, 795), (some 14, 795), (some 7, 795), (some 8, 791), (some 10, 791), (some 13, 791), (none, 801)], [], []⟩,
  ⟨[(some 9, 795), (some 11, 795), (some 14, 795), (some 7, 795), (some 8, 792), (some 10, 792), (some 13, 792), (none, 801)], [], []⟩,
  ⟨[(some 9, 793), (some 11, 793), (some 14, 793), (some 7, 793), (some 9, 794), (some 11, 794), (some 14, 794), (some 7, 794), (none, 801)], [], []⟩,
  ⟨[(some 9, 795), (some 11, 795), (some 14, 795), (some 7, 795)], [], []⟩,
  ⟨[(some 8, 790), (some 10, 790), (some 13, 790)], [], []⟩,
  ⟨[(some 9, 795), (some 11, 795), (some 14, 795), (some 7, 795), (some 8, 790), (some 10, 790), (some 13, 790), (none, 801)], [], []⟩,
  ⟨[(some 6, 797), (some 5, 797), (some 4, 797), (some 6, 798), (some 5, 798), (some 4, 798)], [], []⟩,
  ⟨[(some 9, 795), (some 11, 795), (some 14, 795), (some 7, 795)], [], []⟩,
  ⟨[(some 8, 791), (some 10, 791), (some 13, 791)], [], []⟩,
  ⟨[(none, 790)], [], []⟩,
  ⟨[(none, 795)], [], []⟩,
  ⟨[(none, 802)], [], []⟩,
  ⟨[(some 1, 813), (some 1, 803), (some 1, 804), (some 1, 806), (some 1, 808)], [], []⟩,
  ⟨[(some 16, 813), (some 17, 813), (some 18, 813)], [], []⟩,
  ⟨[(some 16, 805), (some 17, 805), (some 18, 805)], [], []⟩,
  ⟨[(some 16, 811), (some 17, 811), (some 18, 811)], [], []⟩,
  ⟨[(some 2, 807)], [], []⟩,
  ⟨[(some 1, 811)], [], []⟩,
  ⟨[(some 16, 809), (some 17, 809), (some 18, 809)], [], []⟩,
  ⟨[(some 2, 810)], [], []⟩,
  ⟨[(some 1, 811)], [], []⟩,
  ⟨[(some 2, 812), (some 16, 811), (some 17, 811), (some 18, 811), (none, 814)], [], []⟩,
  ⟨[(some 1, 811)], [], []⟩,
  ⟨[(none, 789), (none, 820)], [], []⟩,
  ⟨[(none, 789), (none, 820)], [], []⟩,
  ⟨[(some 4, 816), (some 5, 816), (some 6, 816)], [], []⟩,
  ⟨[(some 1, 817)], [], []⟩,
  ⟨[(none, 796), (some 2, 818), (some 18, 819), (some 17, 819), (some 16, 819)], [], []⟩,
  ⟨[(some 1, 819)], [], []⟩,
  ⟨[(none, 796)], [], []⟩,
  ⟨[(none, 1089)], [], []⟩,
  ⟨[(some 6, 822), (some 5, 822), (some 4, 822)], [], []⟩,
  ⟨[(some 9, 827), (some 11, 827), (some 14, 827), (some 7, 827), (some 8, 823), (some 10, 823), (some 13, 823), (none, 833)], [], []⟩,
  ⟨[(some 9, 827), (some 11, 827), (some 14, 827), (some 7, 827), (some 8, 824), (some 10, 824), (some 13, 824), (none, 833)], [], []⟩,
  ⟨[(some 9, 825), (some 11, 825), (some 14, 825), (some 7, 825), (some 9, 826), (some 11, 826), (some 14, 826), (some 7, 826), (none, 833)], [], []⟩,
  ⟨[(some 9, 827), (some 11, 827), (some 14, 827), (some 7, 827)], [], []⟩,
  ⟨[(some 8, 822), (some 10, 822), (some 13, 822)], [], []⟩,
  ⟨[(some 9, 827), (some 11, 827), (some 14, 827), (some 7, 827), (some 8, 822), (some 10, 822), (some 13, 822), (none, 833)], [], []⟩,
  ⟨[(some 6, 829), (some 5, 829), (some 4, 829), (some 6, 830), (some 5, 830), (some 4, 830)], [], []⟩,
  ⟨[(some 9, 827), (some 11, 827), (some 14, 827), (some 7, 827)], [], []⟩,
  ⟨[(some 8, 823), (some 10, 823), (some 13, 823)], [], []⟩,
  ⟨[(none, 822)], [], []⟩,
  ⟨[(none, 827)], [], []⟩,
  ⟨[(none, 834)], [], []⟩,
  ⟨[(some 1, 845), (some 1, 835), (some 1, 836), (some 1, 838), (some 1, 840)], [], []⟩,
  ⟨[(some 16, 845), (some 17, 845), (some 18, 845)], [], []⟩,
  ⟨[(some 16, 837), (some 17, 837), (some 18, 837)], [], []⟩,
  ⟨[(some 16, 843), (some 17, 843), (some 18, 843)], [], []⟩,
  ⟨[(some 2, 839)], [], []⟩,
  ⟨[(some 1, 843)], [], []⟩,
  ⟨[(some 16, 841), (some 17, 841), (some 18, 841)], [], []⟩,
  ⟨[(some 2, 842)], [], []⟩,
  ⟨[(some 1, 843)], [], []⟩,
  ⟨[(some 2, 844), (some 16, 843), (some 17, 843), (some 18, 843), (none, 846)], [], []⟩,
  ⟨[(some 1, 843)], [], []⟩,
  ⟨[(none, 821), (none, 853)], [], []⟩,
  ⟨[(none, 821), (none, 853)], [], []⟩,
  ⟨[(some 1, 848)], [], []⟩,
  ⟨[(none, 828), (some 2, 849), (some 18, 850), (some 17, 850), (some 16, 850)], [], []⟩,
  ⟨[(some 1, 850)], [], []⟩,
  ⟨[(none, 828), (some 2, 851), (some 18, 852), (some 17, 852), (some 16, 852)], [], []⟩,
  ⟨[(some 1, 852)], [], []⟩,
  ⟨[(none, 828)], [], []⟩,
  ⟨[(none, 1090)], [], []⟩,
  ⟨[(some 9, 862), (some 8, 862), (some 1, 860), (some 1, 859), (some 9, 858), (some 8, 858), (some 1, 856), (some 1, 855)], [], []⟩,
  ⟨[(some 16, 866)], [], []⟩,
  ⟨[(some 2, 857)], [], []⟩,
  ⟨[(some 1, 866)], [], []⟩,
  ⟨[(some 1, 866)], [], []⟩,
  ⟨[(some 4, 867), (some 5, 867), (some 6, 867)], [], []⟩,
  ⟨[(some 4, 861), (some 5, 861), (some 6, 861)], [], []⟩,
  ⟨[(some 7, 868), (some 11, 868), (some 10, 868), (some 9, 868), (some 8, 868)], [], []⟩,
  ⟨[(some 1, 863)], [], []⟩,
  ⟨[(some 4, 868), (some 5, 868), (some 6, 868)], [], []⟩,
  ⟨[(some 1, 865), (some 1, 866)], [], []⟩,
  ⟨[(some 4, 868), (some 5, 868), (some 6, 868)], [], []⟩,
  ⟨[(none, 869)], [], []⟩,
  ⟨[(none, 870)], [], []⟩,
  ⟨[(none, 874)], [], []⟩,
  ⟨[(some 4, 878), (some 5, 878), (some 6, 878)], [], []⟩,
  ⟨[(some 7, 878), (some 11, 878), (some 10, 878), (some 9, 878), (some 8, 878), (some 3, 872), (some 3, 871)], [], []⟩,
  ⟨[(some 12, 878)], [], []⟩,
  ⟨[(some 10, 873)], [], []⟩,
  ⟨[(some 15, 879)], [], []⟩,
  ⟨[(some 3, 876), (some 3, 875)], [], []⟩,
  ⟨[(some 7, 878), (some 11, 878), (some 10, 878), (some 9, 878), (some 8, 878), (some 12, 878), (some 14, 878), (some 13, 878), (some 15, 878)], [], []⟩,
  ⟨[(some 10, 877), (some 13, 877)], [], []⟩,
  ⟨[(some 15, 879)], [], []⟩,
  ⟨[(none, 854), (none, 880)], [], []⟩,
  ⟨[(none, 864), (none, 903)], [], []⟩,
  ⟨[(some 1, 888), (some 9, 885), (some 8, 885), (some 9, 884), (some 8, 884), (some 1, 883), (some 1, 881)], [], []⟩,
  ⟨[(some 2, 882)], [], []⟩,
  ⟨[(some 1, 906)], [], []⟩,
  ⟨[(some 16, 906)], [], []⟩,
  ⟨[(some 1, 906)], [], []⟩,
  ⟨[(some 1, 886)], [], []⟩,
  ⟨[(some 4, 887), (some 5, 887), (some 6, 887)], [], []⟩,
  ⟨[(some 1, 906)], [], []⟩,
  ⟨[(some 4, 889), (some 5, 889), (some 6, 889)], [], []⟩,
  ⟨[(some 7, 890), (some 11, 890), (some 10, 890), (some 9, 890), (some 8, 890)], [], []⟩,
  ⟨[(some 1, 906)], [], []⟩,
  ⟨[(some 1, 898), (some 9, 895), (some 8, 895), (some 1, 894), (some 1, 892)], [], []⟩,
  ⟨[(some 2, 893)], [], []⟩,
  ⟨[(some 1, 906)], [], []⟩,
  ⟨[(some 16, 906)], [], []⟩,
  ⟨[(some 1, 896)], [], []⟩,
  ⟨[(some 4, 897), (some 5, 897), (some 6, 897)], [], []⟩,
  ⟨[(some 1, 906)], [], []⟩,
  ⟨[(some 4, 899), (some 5, 899), (some 6, 899)], [], []⟩,
  ⟨[(some 7, 900), (some 11, 900), (some 10, 900), (some 9, 900), (some 8, 900)], [], []⟩,
  ⟨[(some 1, 906)], [], []⟩,
  ⟨[(some 9, 902), (some 8, 902)], [], []⟩,
  ⟨[(some 1, 906)], [], []⟩,
  ⟨[(some 1, 904), (some 1, 906)], [], []⟩,
  ⟨[(some 4, 905), (some 5, 905), (some 6, 905)], [], []⟩,
  ⟨[(some 1, 906)], [], []⟩,
  ⟨[(none, 910)], [], []⟩,
  ⟨[(none, 854)], [], []⟩,
  ⟨[(none, 864), (none, 903)], [], []⟩,
  ⟨[(some 7, 907), (some 11, 907), (some 10, 907), (some 9, 907), (some 8, 907), (some 7, 880), (some 11, 880), (some 10, 880), (some 9, 880), (some 8, 880)], [], []⟩,
  ⟨[], [c!"TAG_SLINKUI_0"], []⟩,
  ⟨[(some 4, 912), (some 5, 912), (some 6, 912)], [], []⟩,
  ⟨[(none, 923), (some 13, 913), (some 10, 913), (some 8, 913), (some 7, 917), (some 14, 917), (some 11, 917), (some 9, 917)], [], []⟩,
  ⟨[(none, 923), (some 13, 914), (some 10, 914), (some 8, 914), (some 7, 917), (some 14, 917), (some 11, 917), (some 9, 917)], [], []⟩,
  ⟨[(none, 923), (some 7, 916), (some 14, 916), (some 11, 916), (some 9, 916), (some 7, 915), (some 14, 915), (some 11, 915), (some 9, 915)], [], []⟩,
  ⟨[(some 7, 917), (some 14, 917), (some 11, 917), (some 9, 917)], [], []⟩,
  ⟨[(some 13, 912), (some 10, 912), (some 8, 912)], [], []⟩,
  ⟨[(none, 923), (some 13, 912), (some 10, 912), (some 8, 912), (some 7, 917), (some 14, 917), (some 11, 917), (some 9, 917)], [], []⟩,
  ⟨[(some 4, 920), (some 5, 920), (some 6, 920), (some 4, 919), (some 5, 919), (some 6, 919)], [], []⟩,
  ⟨[(some 7, 917), (some 14, 917), (some 11, 917), (some 9, 917)], [], []⟩,
  ⟨[(some 13, 913), (some 10, 913), (some 8, 913)], [], []⟩,
  ⟨[(none, 912)], [], []⟩,
  ⟨[(none, 917)], [], []⟩,
  ⟨[(none, 924)], [], []⟩,
  ⟨[(some 1, 930), (some 1, 928), (some 1, 926), (some 1, 925), (some 1, 935)], [], []⟩,
  ⟨[(some 18, 935), (some 17, 935), (some 16, 935)], [], []⟩,
  ⟨[(some 18, 927), (some 17, 927), (some 16, 927)], [], []⟩,
  ⟨[(some 18, 933), (some 17, 933), (some 16, 933)], [], []⟩,
  ⟨[(some 2, 929)], [], []⟩,
  ⟨[(some 1, 933)], [], []⟩,
  ⟨[(some 18, 931), (some 17, 931), (some 16, 931)], [], []⟩,
  ⟨[(some 2, 932)], [], []⟩,
  ⟨[(some 1, 933)], [], []⟩,
  ⟨[(none, 936), (some 18, 933), (some 17, 933), (some 16, 933), (some 2, 934)], [], []⟩,
  ⟨[(some 1, 933)], [], []⟩,
  ⟨[(none, 942), (none, 911)], [], []⟩,
  ⟨[(none, 942), (none, 911)], [], []⟩,
  ⟨[(none, 938)], [], []⟩,
  ⟨[(some 7, 939), (some 14, 939), (some 11, 939), (some 9, 939)], [], []⟩,
  ⟨[(some 13, 940), (some 14, 941)], [], []⟩,
  ⟨[(none, 921)], [], [c!"AT_S3_3"]⟩,
  ⟨[(none, 922)], [], [c!"AT_S3_3"]⟩,
  ⟨[(none, 946)], [], []⟩,
  ⟨[(some 4, 944), (some 5, 944), (some 6, 944)], [], []⟩,
  ⟨[(some 1, 945)], [], []⟩,
  ⟨[(some 4, 937), (some 5, 937), (some 6, 937)], [], []⟩,
  ⟨[(none, 1091)], [], []⟩,
  ⟨[(some 4, 948), (some 5, 948), (some 6, 948)], [], []⟩,
  ⟨[(none, 959), (some 13, 949), (some 10, 949), (some 8, 949), (some 7, 953), (some 14, 953), (some 11, 953), (some 9, 953)], [], []⟩,
  ⟨[(none, 959), (some 13, 950), (some 10, 950), (some 8, 950), (some 7, 953), (some 14, 953), (some 11, 953), (some 9, 953)], [], []⟩,
  ⟨[(none, 959), (some 7, 952), (some 14, 952), (some 11, 952), (some 9, 952), (some 7, 951), (some 14, 951), (some 11, 951), (some 9, 951)], [], []⟩,
  ⟨[(some 7, 953), (some 14, 953), (some 11, 953), (some 9, 953)], [], []⟩,
  ⟨[(some 13, 948), (some 10, 948), (some 8, 948)], [], []⟩,
  ⟨[(none, 959), (some 13, 948), (some 10, 948), (some 8, 948), (some 7, 953), (some 14, 953), (some 11, 953), (some 9, 953)], [], []⟩,
  ⟨[(some 4, 956), (some 5, 956), (some 6, 956), (some 4, 955), (some 5, 955), (some 6, 955)], [], []⟩,
  ⟨[(some 7, 953), (some 14, 953), (some 11, 953), (some 9, 953)], [], []⟩,
  ⟨[(some 13, 949), (some 10, 949), (some 8, 949)], [], []⟩,
  ⟨[(none, 948)], [], []⟩,
  ⟨[(none, 953)], [], []⟩,
  ⟨[(none, 960)], [], []⟩,
  ⟨[(some 1, 966), (some 1, 964), (some 1, 962), (some 1, 961), (some 1, 971)], [], []⟩,
  ⟨[(some 18, 971), (some 17, 971), (some 16, 971)], [], []⟩,
  ⟨[(some 18, 963), (some 17, 963), (some 16, 963)], [], []⟩,
  ⟨[(some 18, 969), (some 17, 969), (some 16, 969)], [], []⟩,
  ⟨[(some 2, 965)], [], []⟩,
  ⟨[(some 1, 969)], [], []⟩,
  ⟨[(some 18, 967), (some 17, 967), (some 16, 967)], [], []⟩,
  ⟨[(some 2, 968)], [], []⟩,
  ⟨[(some 1, 969)], [], []⟩,
  ⟨[(none, 972), (some 18, 969), (some 17, 969), (some 16, 969), (some 2, 970)], [], []⟩,
  ⟨[(some 1, 969)], [], []⟩,
  ⟨[(none, 978), (none, 947)], [], []⟩,
  ⟨[(none, 978), (none, 947)], [], []⟩,
  ⟨[(none, 974)], [], []⟩,
  ⟨[(some 7, 975), (some 14, 975), (some 11, 975), (some 9, 975)], [], []⟩,
  ⟨[(some 13, 976), (some 14, 977)], [], []⟩,
  ⟨[(none, 957)], [], [c!"AT_S3_4"]⟩,
  ⟨[(none, 958)], [], [c!"AT_S3_4"]⟩,
  ⟨[(none, 986)], [], []⟩,
  ⟨[(some 4, 983), (some 5, 983), (some 6, 983), (some 6, 980)], [], []⟩,
  ⟨[(some 9, 981), (some 8, 981)], [], []⟩,
  ⟨[(some 1, 982)], [], []⟩,
  ⟨[(some 4, 973), (some 5, 973), (some 6, 973)], [], []⟩,
  ⟨[(some 1, 984)], [], []⟩,
  ⟨[(some 4, 985), (some 5, 985), (some 6, 985)], [], []⟩,
  ⟨[(some 7, 973), (some 11, 973), (some 10, 973), (some 9, 973), (some 8, 973)], [], []⟩,
  ⟨[(none, 1092)], [], []⟩,
  ⟨[(some 6, 988), (some 5, 988), (some 4, 988)], [], []⟩,
  ⟨[(some 8, 989), (some 9, 989)], [], []⟩,
  ⟨[(some 1, 990)], [], []⟩,
  ⟨[(some 6, 991), (some 5, 991), (some 4, 991)], [], []⟩,
  ⟨[(none, 1005)], [], []⟩,
  ⟨[(some 6, 993), (some 5, 993), (some 4, 993), (some 6, 996), (some 5, 996), (some 4, 996), (some 6, 998), (some 5, 998), (some 4, 998)], [], []⟩,
  ⟨[(some 1, 994)], [], []⟩,
  ⟨[(some 2, 995)], [], []⟩,
  ⟨[(some 1, 1000)], [], []⟩,
  ⟨[(some 1, 997)], [], []⟩,
  ⟨[(some 16, 1000)], [], []⟩,
  ⟨[(some 1, 999)], [], []⟩,
  ⟨[(some 6, 1003), (some 5, 1003), (some 4, 1003)], [], []⟩,
  ⟨[(some 4, 1001), (some 5, 1002)], [], []⟩,
  ⟨[(some 11, 1004), (some 10, 1004)], [], []⟩,
  ⟨[(some 7, 1004)], [], []⟩,
  ⟨[(some 7, 1004), (some 11, 1004), (some 10, 1004)], [], []⟩,
  ⟨[(none, 1005)], [], []⟩,
  ⟨[(some 8, 1006), (some 9, 1006), (some 1, 1008), (some 1, 1010), (some 1, 1012), (some 8, 1013), (some 9, 1013), (some 1, 1015)], [], []⟩,
  ⟨[(some 1, 1007)], [], []⟩,
  ⟨[(some 6, 1005), (some 5, 1005), (some 4, 1005)], [], []⟩,
  ⟨[(some 16, 1009)], [], []⟩,
  ⟨[(some 6, 1005), (some 5, 1005), (some 4, 1005)], [], []⟩,
  ⟨[(some 6, 1011), (some 5, 1011), (some 4, 1011)], [], []⟩,
  ⟨[(some 8, 1005), (some 9, 1005), (some 10, 1005), (some 11, 1005), (some 7, 1005)], [], []⟩,
  ⟨[(some 6, 1017), (some 5, 1017), (some 4, 1017)], [], []⟩,
  ⟨[(some 1, 1014)], [], []⟩,
  ⟨[(some 6, 1018), (some 5, 1018), (some 4, 1018)], [], []⟩,
  ⟨[(some 6, 1016), (some 5, 1016), (some 4, 1016)], [], []⟩,
  ⟨[(some 8, 1018), (some 9, 1018), (some 10, 1018), (some 11, 1018), (some 7, 1018)], [], []⟩,
  ⟨[(none, 1045)], [], []⟩,
  ⟨[(none, 1077)], [], []⟩,
  ⟨[(some 4, 1020), (some 5, 1020), (some 6, 1020)], [], []⟩,
  ⟨[(none, 1031), (some 13, 1021), (some 10, 1021), (some 8, 1021), (some 7, 1025), (some 14, 1025), (some 11, 1025), (some 9, 1025)], [], []⟩,
  ⟨[(none, 1031), (some 13, 1022), (some 10, 1022), (some 8, 1022), (some 7, 1025), (some 14, 1025), (some 11, 1025), (some 9, 1025)], [], []⟩,
  ⟨[(none, 1031), (some 7, 1024), (some 14, 1024), (some 11, 1024), (some 9, 1024), (some 7, 1023), (some 14, 1023), (some 11, 1023), (some 9, 1023)], [], []⟩,
  ⟨[(some 7, 1025), (some 14, 1025), (some 11, 1025), (some 9, 1025)], [], []⟩,
  ⟨[(some 13, 1020), (some 10, 1020), (some 8, 1020)], [], []⟩,
  ⟨[(none, 1031), (some 13, 1020), (some 10, 1020), (some 8, 1020), (some 7, 1025), (some 14, 1025), (some 11, 1025), (some 9, 1025)], [], []⟩,
  ⟨[(some 4, 1028), (some 5, 1028), (some 6, 1028), (some 4, 1027), (some 5, 1027), (some 6, 1027)], [], []⟩,
  ⟨[(some 7, 1025), (some 14, 1025), (some 11, 1025), (some 9, 1025)], [], []⟩,
  ⟨[(some 13, 1021), (some 10, 1021), (some 8, 1021)], [], []⟩,
  ⟨[(none, 1020)], [], []⟩,
  ⟨[(none, 1025)], [], []⟩,
  ⟨[(none, 1032)], [], []⟩,
  ⟨[(some 1, 1038), (some 1, 1036), (some 1, 1034), (some 1, 1033), (some 1, 1043)], [], []⟩,
  ⟨[(some 18, 1043), (some 17, 1043), (some 16, 1043)], [], []⟩,
  ⟨[(some 18, 1035), (some 17, 1035), (some 16, 1035)], [], []⟩,
  ⟨[(some 18, 1041), (some 17, 1041), (some 16, 1041)], [], []⟩,
  ⟨[(some 2, 1037)], [], []⟩,
  ⟨[(some 1, 1041)], [], []⟩,
  ⟨[(some 18, 1039), (some 17, 1039), (some 16, 1039)], [], []⟩,
  ⟨[(some 2, 1040)], [], []⟩,
  ⟨[(some 1, 1041)], [], []⟩,
  ⟨[(none, 1044), (some 18, 1041), (some 17, 1041), (some 16, 1041), (some 2, 1042)], [], []⟩,
  ⟨[(some 1, 1041)], [], []⟩,
  ⟨[(none, 1050), (none, 1019)], [], []⟩,
  ⟨[(none, 1050), (none, 1019)], [], []⟩,
  ⟨[(none, 1046)], [], []⟩,
  ⟨[(some 7, 1047), (some 14, 1047), (some 11, 1047), (some 9, 1047)], [], []⟩,
  ⟨[(some 13, 1048), (some 14, 1049)], [], []⟩,
  ⟨[(none, 1029)], [], [c!"AT_XS3_3"]⟩,
  ⟨[(none, 1030)], [], [c!"AT_XS3_3"]⟩,
  ⟨[(none, 1084)], [], []⟩,
  ⟨[(some 4, 1052), (some 5, 1052), (some 6, 1052)], [], []⟩,
  ⟨[(none, 1063), (some 13, 1053), (some 10, 1053), (some 8, 1053), (some 7, 1057), (some 14, 1057), (some 11, 1057), (some 9, 1057)], [], []⟩,
  ⟨[(none, 1063), (some 13, 1054), (some 10, 1054), (some 8, 1054), (some 7, 1057), (some 14, 1057), (some 11, 1057), (some 9, 1057)], [], []⟩,
  ⟨[(none, 1063), (some 7, 1056), (some 14, 1056), (some 11, 1056), (some 9, 1056), (some 7, 1055), (some 14, 1055), (some 11, 1055), (some 9, 1055)], [], []⟩,
  ⟨[(some 7, 1057), (some 14, 1057), (some 11, 1057), (some 9, 1057)], [], []⟩,
  ⟨[(some 13, 1052), (some 10, 1052), (some 8, 1052)], [], []⟩,
  ⟨[(none, 1063), (some 13, 1052), (some 10, 1052), (some 8, 1052), (some 7, 1057), (some 14, 1057), (some 11, 1057), (some 9, 1057)], [], []⟩,
  ⟨[(some 4, 1060), (some 5, 1060), (some 6, 1060), (some 4, 1059), (some 5, 1059), (some 6, 1059)], [], []⟩,
  ⟨[(some 7, 1057), (some 14, 1057), (some 11, 1057), (some 9, 1057)], [], []⟩,
  ⟨[(some 13, 1053), (some 10, 1053), (some 8, 1053)], [], []⟩,
  ⟨[(none, 1052)], [], []⟩,
  ⟨[(none, 1057)], [], []⟩,
  ⟨[(none, 1064)], [], []⟩,
  ⟨[(some 1, 1070), (some 1, 1068), (some 1, 1066), (some 1, 1065), (some 1, 1075)], [], []⟩,
  ⟨[(some 18, 1075), (some 17, 1075), (some 16, 1075)], [], []⟩,
  ⟨[(some 18, 1067), (some 17, 1067), (some 16, 1067)], [], []⟩,
  ⟨[(some 18, 1073), (some 17, 1073), (some 16, 1073)], [], []⟩,
  ⟨[(some 2, 1069)], [], []⟩,
  ⟨[(some 1, 1073)], [], []⟩,
  ⟨[(some 18, 1071), (some 17, 1071), (some 16, 1071)], [], []⟩,
  ⟨[(some 2, 1072)], [], []⟩,
  ⟨[(some 1, 1073)], [], []⟩,
  ⟨[(none, 1076), (some 18, 1073), (some 17, 1073), (some 16, 1073), (some 2, 1074)], [], []⟩,
  ⟨[(some 1, 1073)], [], []⟩,
  ⟨[(none, 1082), (none, 1051)], [], []⟩,
  ⟨[(none, 1082), (none, 1051)], [], []⟩,
  ⟨[(none, 1078)], [], []⟩,
  ⟨[(some 7, 1079), (some 14, 1079), (some 11, 1079), (some 9, 1079)], [], []⟩,
  ⟨[(some 13, 1080), (some 14, 1081)], [], []⟩,
  ⟨[(none, 1061)], [], [c!"AT_XS3_4"]⟩,
  ⟨[(none, 1062)], [], [c!"AT_XS3_4"]⟩,
  ⟨[(none, 1085)], [], []⟩,
  ⟨[(none, 992), (none, 987)], [], []⟩,
  ⟨[], [c!"TAG_X_STAGE3_CVC"], []⟩,
  ⟨[], [c!"TAG_X_STAGE3_LONG"], []⟩,
  ⟨[(none, 786), (none, 815), (none, 847), (none, 943), (none, 979), (none, 1083)], [], []⟩,
  ⟨[(none, 786), (none, 815), (none, 943), (none, 979), (none, 1083)], [], []⟩,
  ⟨[], [c!"TAG_FUIVLA_0"], []⟩,
  ⟨[], [c!"TAG_FUIVLA_1"], []⟩,
  ⟨[], [c!"TAG_FUIVLA_1"], []⟩,
  ⟨[], [c!"TAG_STAGE3_CVC"], []⟩,
  ⟨[], [c!"TAG_STAGE3_LONG"], []⟩,
  ⟨[(none, 687), (none, 723), (none, 708), (none, 1086), (none, 636), (none, 294), (none, 0)], [], []⟩]

/-- The NFA that `dfasyn` reads from `morf_nfa.in`. -/
def morfNfa : Nfa := ⟨morfStates, 21, morfExit, morfAttr⟩

theorem morf_compiles : morfSource.compile = some (morfNfa, 1093) :=
  compile_of_check (src := morfSource) (l := morfStates) (by decide +kernel)

end Jbo.Morf
