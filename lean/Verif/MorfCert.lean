import Verif.DfaCertPipe
import Verif.MorfNfa
/-!
# The table automaton of the morphology

The subset automaton of the NFA, with the set of each state; the kernel checks it (see `DfaCert`).
-/

namespace Jbo.Morf
open Jbo.Dfasyn
set_option maxRecDepth 100000

/-- The certificate. -/
def morfCert : Cert where
  W := 11
  exitNames := [
    c!"TAG_CMAVOS", c!"TAG_CMAVOS_END_CY", c!"TAG_CMENE", c!"TAG_CULTURAL_LUJVO_0", c!"TAG_CULTURAL_LUJVO_1",
    c!"TAG_CULTURAL_LUJVO_1T", c!"TAG_CULTURAL_LUJVO_TAIL_OK", c!"TAG_FUIVLA_0", c!"TAG_FUIVLA_1",
    c!"TAG_GISMU_0", c!"TAG_GISMU_1", c!"TAG_LUJVO_0", c!"TAG_LUJVO_1", c!"TAG_LUJVO_1T",
    c!"TAG_LUJVO_NO_Y_BAD_VOWELS", c!"TAG_LUJVO_TAIL_OK", c!"TAG_SLINKUI_0", c!"TAG_STAGE3_CVC",
    c!"TAG_STAGE3_LONG", c!"TAG_X_STAGE3_CVC", c!"TAG_X_STAGE3_LONG"]
  attrNames := [
    c!"AT_S3_3", c!"AT_S3_4", c!"AT_XS3_3", c!"AT_XS3_4"]
  classes := [
    ⟨0x0, 0x0, 0, 0⟩, ⟨0x1, 0x0, 22, 0⟩, ⟨0x2, 0x0, 23, 0⟩, ⟨0x4, 0x0, 21, 0⟩, ⟨0x100, 0x0, 20, 0⟩,
    ⟨0x10000, 0x0, 0, 0⟩, ⟨0x10100, 0x0, 20, 0⟩, ⟨0x500, 0x0, 2, 0⟩, ⟨0x4, 0x1, 21, 1⟩,
    ⟨0x10080, 0x0, 11, 0⟩, ⟨0x280, 0x0, 1, 0⟩, ⟨0x80, 0x0, 19, 0⟩, ⟨0x10180, 0x0, 20, 0⟩, ⟨0x380, 0x0, 1, 0⟩,
    ⟨0x180, 0x0, 19, 0⟩, ⟨0x15110, 0x0, 4, 0⟩, ⟨0x4100, 0x0, 0, 0⟩, ⟨0x4, 0x2, 21, 2⟩, ⟨0x20100, 0x0, 14, 0⟩,
    ⟨0x5110, 0x0, 4, 0⟩, ⟨0x4000, 0x0, 0, 0⟩, ⟨0x14000, 0x0, 0, 0⟩, ⟨0x4888, 0x0, 3, 0⟩, ⟨0x4080, 0x0, 0, 0⟩,
    ⟨0x14888, 0x0, 3, 0⟩, ⟨0x14100, 0x0, 0, 0⟩, ⟨0x4988, 0x0, 3, 0⟩, ⟨0x4180, 0x0, 0, 0⟩,
    ⟨0x14988, 0x0, 3, 0⟩, ⟨0x2020, 0x0, 5, 0⟩, ⟨0x1010, 0x0, 4, 0⟩, ⟨0x40100, 0x0, 13, 0⟩,
    ⟨0x60100, 0x0, 13, 0⟩, ⟨0x15190, 0x0, 4, 0⟩, ⟨0x40080, 0x0, 12, 0⟩, ⟨0x40180, 0x0, 12, 0⟩,
    ⟨0x11110, 0x0, 4, 0⟩, ⟨0x4, 0x4, 21, 3⟩, ⟨0x11190, 0x0, 4, 0⟩, ⟨0x15998, 0x0, 3, 0⟩, ⟨0x888, 0x0, 3, 0⟩,
    ⟨0x808, 0x0, 3, 0⟩, ⟨0x10808, 0x0, 3, 0⟩, ⟨0x988, 0x0, 3, 0⟩, ⟨0x8040, 0x0, 0, 0⟩, ⟨0xa060, 0x0, 6, 0⟩,
    ⟨0x4, 0x8, 21, 4⟩, ⟨0x80100, 0x0, 18, 0⟩, ⟨0x80000, 0x0, 0, 0⟩, ⟨0x80080, 0x0, 16, 0⟩, ⟨0x8, 0x0, 7, 0⟩,
    ⟨0x80180, 0x0, 16, 0⟩, ⟨0x11010, 0x0, 4, 0⟩, ⟨0x100100, 0x0, 17, 0⟩, ⟨0x180100, 0x0, 17, 0⟩,
    ⟨0x11818, 0x0, 3, 0⟩, ⟨0x100000, 0x0, 0, 0⟩, ⟨0x180000, 0x0, 0, 0⟩, ⟨0x100080, 0x0, 15, 0⟩,
    ⟨0x180080, 0x0, 15, 0⟩, ⟨0x100180, 0x0, 15, 0⟩, ⟨0x180180, 0x0, 15, 0⟩, ⟨0x40, 0x0, 0, 0⟩,
    ⟨0x10, 0x0, 8, 0⟩, ⟨0x20, 0x0, 9, 0⟩, ⟨0x18, 0x0, 7, 0⟩, ⟨0x60, 0x0, 10, 0⟩]
  nodes := [
    ⟨[0, 11, 293, 294, 299, 581, 582, 636, 687, 708, 723, 732, 786, 815, 847, 943, 979, 987, 992, 1083, 1086, 1093], 0x140200400600001000, 0⟩,
    ⟨[0, 11, 293, 294, 299, 581, 582, 636, 687, 709, 712, 713, 719, 720, 726, 732, 786, 815, 828, 848, 943, 979, 987, 992, 1083, 1087], 0x1802c0500900000000000000000000000000200380700001800000, 1⟩,
    ⟨[716, 721, 722, 724], 0xf0000000000000000000000000000000000000380700e00003400000, 2⟩,
    ⟨[6, 12, 15, 19, 21, 300, 303, 307, 309, 688, 690, 693, 695, 697, 702, 711, 714, 725, 730, 731, 788, 816, 909, 944, 983, 988, 993, 996, 998], 0x3807000024048098130240000000002200008000, 3⟩,
    ⟨[1, 6, 12, 15, 17, 19, 21, 24, 300, 303, 305, 307, 309, 312, 583, 688, 690, 693, 695, 697, 702, 711, 714, 725, 730, 731, 733, 734, 735, 737, 739, 742, 788, 816, 909, 944, 980, 983, 988, 993, 996, 998], 0x38070000240480a8140240000000002200008000, 3⟩,
    ⟨[711, 727, 849], 0x1800004800, 0⟩,
    ⟨[6, 12, 15, 19, 21, 300, 303, 307, 309, 688, 690, 693, 695, 697, 702, 711, 714, 725, 730, 731, 788, 816, 829, 830, 909, 944, 983, 988, 993, 996, 998], 0x6c0d00002c0640c01702c0000000002200008000, 3⟩,
    ⟨[1, 6, 12, 15, 17, 19, 21, 24, 300, 303, 305, 307, 309, 312, 583, 688, 690, 693, 695, 697, 702, 711, 714, 725, 730, 731, 733, 734, 735, 737, 739, 742, 788, 816, 829, 830, 909, 944, 980, 983, 988, 993, 996, 998], 0x6c0d00002c0640e81c02c0000000002200008000, 3⟩,
    ⟨[0, 11, 293, 294, 299, 581, 582, 636, 687, 712, 713, 719, 720, 726, 732, 786, 815, 828, 850, 943, 979, 987, 992, 1083, 1087], 0x180801001f00000000000000000000000000200380700007800000, 1⟩,
    ⟨[0, 11, 293, 294, 299, 581, 582, 636, 687, 710, 719, 720, 726, 732, 786, 815, 828, 850, 943, 979, 987, 992, 1083, 1087], 0x1808010020000000000000000000000000008c1102200008400000, 1⟩,
    ⟨[726, 828, 850], 0x180801002000000000000000000000000000901202400008400000, 0⟩,
    ⟨[726], 0x180300600c00000000000000000000000000380700e00009400000, 0⟩,
    ⟨[718], 0x4c00000000, 0⟩,
    ⟨[725, 730, 731], 0x380700001c0380700e01c0000000004e00006000, 3⟩,
    ⟨[717, 721, 722], 0xf0000000000000000000000000000000000000000000000000000000, 2⟩,
    ⟨[0, 7, 11, 13, 16, 20, 22, 293, 294, 299, 301, 304, 308, 310, 581, 582, 636, 687, 689, 691, 696, 698, 703, 712, 713, 719, 720, 726, 732, 786, 796, 815, 817, 943, 945, 979, 984, 987, 992, 994, 997, 999, 1083, 1087], 0x180b01602b00000000000000000000000000a8148290000a000000, 1⟩,
    ⟨[715, 721, 722, 728], 0x270180000000005a0b41682d05a0b81682d05a0000000000009400000, 2⟩,
    ⟨[725, 730, 731, 854, 880, 907], 0x380700001c0381803001c0000000004e00017800, 3⟩,
    ⟨[694, 725, 730, 731, 854, 880, 907, 989], 0x380700001c0381803001c0000000004e00018800, 3⟩,
    ⟨[2, 18, 25, 306, 313, 584, 694, 725, 730, 731, 736, 738, 740, 743, 746, 747, 854, 880, 907, 981, 989], 0x380700001c0381a03301c0000000004e00019000, 3⟩,
    ⟨[2, 18, 25, 306, 313, 584, 694, 725, 730, 731, 746, 747, 854, 880, 907, 981, 989], 0x380700001c0381803001c0000000004e00019000, 3⟩,
    ⟨[725, 730, 731, 827, 833, 834, 854, 880, 907], 0x6c1c0000360e01b8360360000000004e0001a800, 3⟩,
    ⟨[694, 725, 730, 731, 823, 833, 834, 854, 880, 907, 989], 0x6c1d8000360ec1b83a0360000000004e0001c800, 3⟩,
    ⟨[694, 725, 730, 731, 827, 833, 834, 854, 880, 907, 989], 0x6c1c0000360e01b8360360000000004e0001c800, 3⟩,
    ⟨[725, 730, 731, 823, 833, 834, 854, 880, 907], 0x6c1d8000360ec1b83a0360000000004e0001a800, 3⟩,
    ⟨[725, 730, 731, 823, 833, 834], 0x6c1d8000360ec0d83b0360000000004e0001e000, 3⟩,
    ⟨[725, 730, 731, 827, 833, 834], 0x6c1c0000360e00d8380360000000004e0001e000, 3⟩,
    ⟨[2, 18, 25, 306, 313, 584, 694, 725, 730, 731, 736, 738, 740, 743, 746, 747, 823, 833, 834, 854, 880, 907, 981, 989], 0x6c1d8000360ec1f83e0360000000004e0001e800, 3⟩,
    ⟨[2, 18, 25, 306, 313, 584, 694, 725, 730, 731, 746, 747, 827, 833, 834, 854, 880, 907, 981, 989], 0x6c1c0000360e01b8360360000000004e0001e800, 3⟩,
    ⟨[711, 727, 851], 0x180000f800, 0⟩,
    ⟨[0, 11, 293, 294, 299, 581, 582, 636, 687, 712, 713, 719, 720, 726, 732, 786, 815, 828, 852, 943, 979, 987, 992, 1083, 1087], 0x180300604100000000000000000000000000200380700010000000, 1⟩,
    ⟨[726, 828, 852], 0x180300600c00000000000000000000000000901202400009400000, 0⟩,
    ⟨[727, 851], 0x1800010000, 0⟩,
    ⟨[6, 12, 15, 19, 21, 300, 303, 307, 309, 688, 690, 693, 695, 697, 702, 711, 725, 730, 731, 788, 816, 829, 830, 909, 944, 983, 988, 993, 996, 998], 0x6c0d00002c0640c01702c0000000004e00008000, 3⟩,
    ⟨[1, 6, 12, 15, 17, 19, 21, 24, 300, 303, 305, 307, 309, 312, 583, 688, 690, 693, 695, 697, 702, 711, 725, 730, 731, 733, 734, 735, 737, 739, 742, 788, 816, 829, 830, 909, 944, 980, 983, 988, 993, 996, 998], 0x6c0d00002c0640e81c02c0000000004e00008000, 3⟩,
    ⟨[725, 730, 731, 829, 830], 0x6c0d0000360680d81a0360000000004e00006000, 3⟩,
    ⟨[727], 0x1800006000, 0⟩,
    ⟨[721, 722], 0x0, 2⟩,
    ⟨[728], 0x270180000000001c0380700e01c1080700e01c0000000000009400000, 0⟩,
    ⟨[14, 302, 692, 704, 711, 727, 818, 995], 0x1800021800, 0⟩,
    ⟨[6, 8, 12, 15, 19, 21, 23, 29, 44, 300, 303, 307, 309, 311, 317, 332, 641, 688, 690, 693, 695, 697, 702, 711, 714, 725, 730, 731, 788, 797, 798, 816, 909, 937, 938, 944, 983, 985, 988, 993, 996, 998, 1003], 0x1282480008a1202384608a0000000008800008000, 3⟩,
    ⟨[1, 6, 8, 12, 15, 17, 19, 21, 23, 24, 29, 44, 300, 303, 305, 307, 309, 311, 312, 317, 332, 583, 641, 688, 690, 693, 695, 697, 702, 711, 714, 725, 730, 731, 733, 734, 735, 737, 739, 742, 788, 797, 798, 816, 909, 937, 938, 944, 980, 983, 985, 988, 993, 996, 998, 1003], 0x1282480008a1202604b08a0000000008800008000, 3⟩,
    ⟨[0, 11, 27, 32, 293, 294, 299, 315, 320, 581, 582, 636, 661, 687, 699, 712, 713, 719, 720, 726, 732, 786, 796, 815, 819, 943, 979, 987, 992, 1000, 1083, 1087], 0x1803006041000000000000000000000000013c2704d00010000000, 1⟩,
    ⟨[661, 699, 726, 796, 819], 0x180300600c00000000000000000000000001482885000009400000, 0⟩,
    ⟨[714, 725, 730, 731], 0x380700001c0380700e01c0000000002200006000, 3⟩,
    ⟨[714, 725, 729, 730, 731], 0x1c0380700001c0380700e01c0000000002200006000, 3⟩,
    ⟨[726, 855, 856, 859, 860, 881, 883, 888], 0x180300605500000000000000000000000001502a05400014c00000, 0⟩,
    ⟨[725, 730, 731, 858, 862, 884, 885], 0x380700001c0380700e01c0000000004e0002b000, 3⟩,
    ⟨[651, 726, 855, 856, 859, 860, 881, 883, 888, 990], 0x1803006055000000000000000000000000015c2b85700014c00000, 0⟩,
    ⟨[3, 26, 28, 35, 314, 316, 323, 585, 588, 651, 726, 748, 749, 751, 753, 758, 760, 855, 856, 859, 860, 881, 883, 888, 982, 990], 0x1816c2d85a00000000000000000000000001642c85900016000000, 0⟩,
    ⟨[725, 730, 731, 744, 746, 747, 858, 862, 884, 885], 0x380700001c0382e80e01c0000000004e0002e000, 3⟩,
    ⟨[725, 730, 731, 741, 746, 747, 858, 862, 884, 885], 0x380700001c0382f00e01c0000000004e0002e000, 3⟩,
    ⟨[726, 821, 835, 836, 838, 840, 845, 853, 855, 856, 859, 860, 881, 883, 888, 1090], 0x181883106100000000000000000000000001803006000017c00000, 4⟩,
    ⟨[725, 730, 731, 822, 833, 834, 858, 862, 884, 885], 0x6c0d0000360680d81a0360000000004e00031800, 3⟩,
    ⟨[725, 730, 731, 827, 833, 834, 858, 862, 884, 885], 0x6c1c0000360e00d8380360000000004e00031800, 3⟩,
    ⟨[725, 730, 731, 822, 833, 834], 0x6c0d0000360680d81a0360000000004e0001e000, 3⟩,
    ⟨[651, 726, 821, 835, 836, 838, 840, 845, 853, 855, 856, 859, 860, 881, 883, 888, 990, 1090], 0x181883106100000000000000000000000001903206400017c00000, 4⟩,
    ⟨[725, 730, 731, 824, 833, 834, 858, 862, 884, 885], 0x194070000ca0383280e0ca0000000004e00031800, 3⟩,
    ⟨[725, 730, 731, 824, 833, 834], 0x194070000ca0383280e0ca0000000004e0001e000, 3⟩,
    ⟨[726, 821, 835, 836, 838, 840, 845, 853, 1090], 0x181883106200000000000000000000000000e01c03800019800000, 4⟩,
    ⟨[3, 26, 28, 35, 314, 316, 323, 585, 588, 651, 726, 748, 749, 751, 753, 758, 760, 821, 835, 836, 838, 840, 845, 853, 855, 856, 859, 860, 881, 883, 888, 982, 990, 1090], 0x181a83506900000000000000000000000001a03406800019c00000, 4⟩,
    ⟨[725, 730, 731, 744, 746, 747, 824, 833, 834, 858, 862, 884, 885], 0x194070000ca0383600e0ca0000000004e00035800, 3⟩,
    ⟨[725, 730, 731, 741, 746, 747, 827, 833, 834, 858, 862, 884, 885], 0x6c1c0000360e0368380360000000004e00035800, 3⟩,
    ⟨[711, 727], 0x1800020800, 0⟩,
    ⟨[0, 11, 293, 294, 299, 581, 582, 636, 687, 712, 713, 719, 720, 726, 732, 786, 815, 943, 979, 987, 992, 1083, 1087], 0x180300604100000000000000000000000000140200400010000000, 1⟩,
    ⟨[725, 729, 730, 731], 0x1c0380700001c0380700e01c0000000004e00006000, 3⟩,
    ⟨[0, 11, 27, 32, 293, 294, 299, 315, 320, 581, 582, 636, 661, 687, 705, 712, 713, 719, 720, 726, 732, 786, 796, 815, 819, 943, 979, 987, 992, 1000, 1083, 1087], 0x180300604100000000000000000000000001c03786e00010000000, 1⟩,
    ⟨[45, 46, 47, 333, 334, 335, 715, 721, 722, 728], 0x270180000000005a0b41687305a1c83887105a0000000000009400000, 2⟩,
    ⟨[9, 30, 40, 51, 55, 115, 141, 168, 318, 328, 339, 343, 403, 429, 456, 610, 642, 644, 647, 649, 725, 730, 731, 795, 801, 802, 854, 880, 907, 939, 973, 974, 1004, 1005], 0x1ec3d0000ec1e43c0770ec000000000ea0003a000, 3⟩,
    ⟨[9, 30, 40, 51, 55, 115, 141, 168, 318, 328, 339, 343, 403, 429, 456, 610, 642, 644, 647, 649, 694, 725, 730, 731, 791, 801, 802, 854, 880, 907, 973, 974, 989], 0x1d83f8000ec1fc3f07d0ec000000000ea0003e000, 3⟩,
    ⟨[9, 30, 40, 51, 55, 115, 141, 168, 318, 328, 339, 343, 403, 429, 456, 610, 642, 644, 647, 649, 694, 725, 730, 731, 795, 801, 802, 854, 880, 907, 939, 973, 974, 989], 0x1ec3d0000ec1e43f0800ec000000000ea0003e000, 3⟩,
    ⟨[9, 30, 40, 51, 55, 115, 141, 168, 318, 328, 339, 343, 403, 429, 456, 610, 642, 644, 647, 649, 725, 730, 731, 791, 801, 802, 854, 880, 907, 973, 974, 1004, 1005], 0x1d83f8000ec1fc3c0810ec000000000ea0003a000, 3⟩,
    ⟨[725, 730, 731, 791, 801, 802], 0x20c3f8001061fc4187f1060000000004e00041000, 3⟩,
    ⟨[725, 730, 731, 795, 801, 802, 939], 0x2103d0001061e4418791060000000004e00041000, 3⟩,
    ⟨[2, 9, 18, 25, 30, 40, 51, 55, 115, 141, 168, 306, 313, 318, 328, 339, 343, 403, 429, 456, 584, 610, 642, 644, 647, 649, 694, 725, 730, 731, 736, 738, 740, 743, 746, 747, 791, 801, 802, 854, 880, 907, 973, 974, 981, 989], 0x1d83f8000ec1fc438860ec000000000ea00042800, 3⟩,
    ⟨[2, 9, 18, 25, 30, 40, 51, 55, 115, 141, 168, 306, 313, 318, 328, 339, 343, 403, 429, 456, 584, 610, 642, 644, 647, 649, 694, 725, 730, 731, 746, 747, 795, 801, 802, 854, 880, 907, 939, 973, 974, 981, 989], 0x1ec3d0000ec1e43f0800ec000000000ea00042800, 3⟩,
    ⟨[6, 12, 15, 19, 21, 33, 49, 162, 300, 303, 307, 309, 321, 337, 450, 662, 665, 669, 672, 688, 690, 693, 695, 697, 700, 702, 711, 714, 725, 730, 731, 788, 797, 798, 816, 909, 944, 983, 988, 993, 996, 998, 1001], 0x20c2480011822c450891100000000002200008000, 3⟩,
    ⟨[6, 12, 15, 19, 21, 34, 49, 162, 300, 303, 307, 309, 322, 337, 450, 675, 678, 682, 688, 690, 693, 695, 697, 700, 702, 711, 714, 725, 730, 731, 788, 797, 798, 816, 909, 944, 983, 988, 993, 996, 998, 1002], 0x20c248001222404788e11a0000000002200008000, 3⟩,
    ⟨[1, 6, 12, 15, 17, 19, 21, 24, 49, 162, 300, 303, 305, 307, 309, 312, 337, 450, 583, 688, 690, 693, 695, 697, 700, 702, 711, 714, 725, 730, 731, 733, 734, 735, 737, 739, 742, 788, 797, 798, 816, 909, 944, 980, 983, 988, 993, 996, 998], 0x20c24800122240498921220000000002200008000, 3⟩,
    ⟨[662, 665, 669, 672, 700, 725, 730, 731, 797, 798], 0x20c2480012825c4b0951280000000004e00006000, 3⟩,
    ⟨[675, 678, 682, 700, 725, 730, 731, 797, 798], 0x20c248001061244d0991300000000004e00006000, 3⟩,
    ⟨[700, 725, 730, 731, 797, 798], 0x20c248001061244d0991060000000004e00006000, 3⟩,
    ⟨[727, 857, 882], 0x180002a800, 0⟩,
    ⟨[725, 730, 731, 861, 867, 870, 889], 0x38070001382704e09c1380000000013600006000, 3⟩,
    ⟨[726, 866, 869, 906, 910], 0x180300600c00000000000000000000000002744e89d00009400000, 5⟩,
    ⟨[726, 863, 866, 869, 886, 906, 910], 0x180300600c00000000000000000000000002784f09e00009400000, 5⟩,
    ⟨[652, 654, 657, 659, 725, 730, 731, 861, 867, 870, 889, 991, 1005], 0x3807000138270500a0138000000001360004f800, 3⟩,
    ⟨[586, 727, 752, 857, 882], 0x1800050800, 0⟩,
    ⟨[4, 31, 36, 52, 53, 60, 86, 113, 319, 324, 340, 341, 348, 374, 401, 601, 652, 654, 657, 659, 725, 730, 731, 761, 772, 773, 861, 867, 870, 889, 973, 974, 991, 1005], 0x2a45400014829c530a51480000000014600051000, 3⟩,
    ⟨[589, 726, 750, 754, 758, 760, 866, 869, 906, 910], 0x182b0560ac00000000000000000000000002ac558ab0002a800000, 5⟩,
    ⟨[726, 750, 754, 758, 760], 0x182b0560ac00000000000000000000000002b4568ad0002a800000, 0⟩,
    ⟨[726, 748, 749, 751, 753, 758, 760, 863, 866, 869, 886, 906, 910], 0x1816c2d85b00000000000000000000000002bc578af0002b800000, 5⟩,
    ⟨[725, 730, 731, 745], 0x380700001c0382f00e01c0000000004e00006000, 3⟩,
    ⟨[725, 730, 731, 746, 747], 0x380700001c0380700e01c0000000004e00058000, 3⟩,
    ⟨[727, 839, 857, 882], 0x1800058800, 0⟩,
    ⟨[725, 730, 731, 822, 833, 834, 861, 867, 870, 889], 0x6c0d0001642cc590b3164000000001360001e000, 3⟩,
    ⟨[726, 821, 837, 841, 845, 853, 866, 869, 906, 910, 1090], 0x182d85b0b600000000000000000000000002d45a8b50002d000000, 6⟩,
    ⟨[726, 821, 837, 841, 845, 853, 1090], 0x182d85b0b600000000000000000000000000e01c0380002d000000, 4⟩,
    ⟨[726, 821, 835, 836, 838, 840, 845, 853, 863, 866, 869, 886, 906, 910, 1090], 0x181883106200000000000000000000000002dc5b8b700019800000, 6⟩,
    ⟨[652, 654, 657, 659, 725, 730, 731, 822, 833, 834, 861, 867, 870, 889, 991, 1005], 0x6c0d0001642cc5d0b9164000000001360005c000, 3⟩,
    ⟨[725, 730, 731, 825, 826], 0x6c1c0000360e00d8380360000000004e00006000, 3⟩,
    ⟨[727, 839], 0x180005b000, 0⟩,
    ⟨[586, 727, 752, 839, 857, 882], 0x180005d800, 0⟩,
    ⟨[4, 31, 36, 52, 53, 60, 86, 113, 319, 324, 340, 341, 348, 374, 401, 601, 652, 654, 657, 659, 725, 730, 731, 761, 772, 773, 822, 833, 834, 861, 867, 870, 889, 973, 974, 991, 1005], 0x3086080017a3005f8be17a000000001460005e000, 3⟩,
    ⟨[589, 726, 750, 754, 758, 760, 821, 837, 841, 845, 853, 866, 869, 906, 910, 1090], 0x18314628c50000000000000000000000000310620c400030c00000, 6⟩,
    ⟨[726, 750, 754, 758, 760, 821, 837, 841, 845, 853, 1090], 0x18314628c50000000000000000000000000318630c600030c00000, 4⟩,
    ⟨[726, 748, 749, 751, 753, 758, 760, 821, 835, 836, 838, 840, 845, 853, 863, 866, 869, 886, 906, 910, 1090], 0x181a83506a0000000000000000000000000320640c800031c00000, 6⟩,
    ⟨[725, 730, 731, 745, 825, 826], 0x6c1c0000360e0368380360000000004e00006000, 3⟩,
    ⟨[725, 730, 731, 746, 747, 827, 833, 834], 0x6c1c0000360e00d8380360000000004e00064800, 3⟩,
    ⟨[6, 12, 15, 19, 21, 33, 49, 162, 300, 303, 307, 309, 321, 337, 450, 662, 665, 669, 672, 688, 690, 693, 695, 697, 702, 706, 711, 714, 725, 730, 731, 788, 797, 798, 816, 909, 944, 983, 988, 993, 996, 998, 1001], 0x20c2480011822c658ca1100000000002200008000, 3⟩,
    ⟨[6, 12, 15, 19, 21, 34, 49, 162, 300, 303, 307, 309, 322, 337, 450, 675, 678, 682, 688, 690, 693, 695, 697, 702, 706, 711, 714, 725, 730, 731, 788, 797, 798, 816, 909, 944, 983, 988, 993, 996, 998, 1002], 0x20c24800122240668cc11a0000000002200008000, 3⟩,
    ⟨[1, 6, 12, 15, 17, 19, 21, 24, 49, 162, 300, 303, 305, 307, 309, 312, 337, 450, 583, 688, 690, 693, 695, 697, 702, 706, 711, 714, 725, 730, 731, 733, 734, 735, 737, 739, 742, 788, 797, 798, 816, 909, 944, 980, 983, 988, 993, 996, 998], 0x20c24800122240678ce1220000000002200008000, 3⟩,
    ⟨[57, 58, 59, 170, 196, 223, 225, 291, 345, 346, 347, 458, 484, 511, 513, 579, 593, 619, 714, 725, 730, 731], 0x380700001c038688d101c0000000002200068000, 3⟩,
    ⟨[48, 336, 714, 725, 729, 730, 731], 0x1a40380700001c0380700e01c0000000002200006000, 3⟩,
    ⟨[51, 55, 115, 141, 168, 339, 343, 403, 429, 456, 610, 714, 725, 730, 731], 0x380700001c0386a0d401c0000000002200069800, 3⟩,
    ⟨[10, 116, 117, 120, 121, 142, 144, 149, 404, 405, 408, 409, 430, 432, 437, 643, 645, 648, 726, 789, 803, 804, 806, 808, 813, 820, 855, 856, 859, 860, 881, 883, 888, 1008, 1010, 1012, 1015, 1089], 0x183606c0d700000000000000000000000003586b0d600035400000, 7⟩,
    ⟨[41, 42, 329, 330, 728], 0x27018000000001b23646d8d91b23686c8d91b20000000000009400000, 0⟩,
    ⟨[725, 730, 731, 795, 801, 802, 975], 0x3746e0001061e4418791060000000004e00041000, 3⟩,
    ⟨[119, 123, 145, 146, 407, 411, 433, 434, 611, 650, 725, 730, 731, 790, 801, 802, 858, 862, 884, 885, 1006, 1013], 0x20c24800106124418491060000000004e0006f000, 3⟩,
    ⟨[119, 123, 145, 146, 407, 411, 433, 434, 611, 650, 725, 730, 731, 795, 801, 802, 858, 862, 884, 885, 975, 1006, 1013], 0x3746e0001061e4418791060000000004e0006f000, 3⟩,
    ⟨[725, 730, 731, 790, 801, 802], 0x20c24800106124418491060000000004e00041000, 3⟩,
    ⟨[725, 730, 731, 790, 801, 802, 912, 921, 923, 924, 940], 0x380708001c0384700e11c00000000004e0006f800, 8⟩,
    ⟨[725, 730, 731, 795, 801, 802, 917, 922, 923, 924, 941, 975], 0x390718001c0388700e21c00000000004e0006f800, 8⟩,
    ⟨[10, 116, 117, 120, 121, 142, 144, 149, 404, 405, 408, 409, 430, 432, 437, 643, 645, 648, 651, 726, 789, 803, 804, 806, 808, 813, 820, 855, 856, 859, 860, 881, 883, 888, 990, 1089], 0x183606c0e60000000000000000000000000394728e500035400000, 7⟩,
    ⟨[119, 123, 145, 146, 407, 411, 433, 434, 611, 650, 725, 730, 731, 792, 801, 802, 858, 862, 884, 885], 0x3a0070001d00387400e1d00000000004e00073800, 3⟩,
    ⟨[119, 123, 145, 146, 407, 411, 433, 434, 611, 650, 725, 730, 731, 795, 801, 802, 858, 862, 884, 885, 975], 0x3746e0001061e4418791060000000004e00073800, 3⟩,
    ⟨[725, 730, 731, 792, 801, 802], 0x3a0070001d00387400e1d00000000004e00041000, 3⟩,
    ⟨[119, 123, 145, 146, 407, 411, 433, 434, 611, 650, 725, 730, 731, 790, 801, 802, 858, 862, 884, 885], 0x20c24800106124418491060000000004e00073800, 3⟩,
    ⟨[119, 123, 145, 146, 407, 411, 433, 434, 611, 650, 725, 730, 731, 792, 801, 802, 858, 862, 884, 885, 1006, 1013], 0x3a0070001d00387400e1d00000000004e0006f000, 3⟩,
    ⟨[726, 789, 803, 804, 806, 808, 813, 820, 1089], 0x183a8750ea00000000000000000000000001e43c8790003a400000, 4⟩,
    ⟨[725, 730, 731, 795, 801, 802], 0x20c3c8001061e4418791060000000004e00041000, 3⟩,
    ⟨[725, 730, 731, 795, 801, 802, 917, 922, 923, 924, 941], 0x380710001c0388700e21c00000000004e0006f800, 8⟩,
    ⟨[3, 10, 26, 28, 35, 116, 117, 120, 121, 142, 144, 149, 314, 316, 323, 404, 405, 408, 409, 430, 432, 437, 585, 588, 643, 645, 648, 651, 726, 748, 749, 751, 753, 758, 760, 789, 803, 804, 806, 808, 813, 820, 855, 856, 859, 860, 881, 883, 888, 982, 990, 1089], 0x183b8770ed00000000000000000000000003b0760ec0003ac00000, 7⟩,
    ⟨[119, 123, 145, 146, 407, 411, 433, 434, 611, 650, 725, 730, 731, 744, 746, 747, 792, 801, 802, 858, 862, 884, 885], 0x3a0070001d00387800e1d00000000004e00077800, 3⟩,
    ⟨[119, 123, 145, 146, 407, 411, 433, 434, 611, 650, 725, 730, 731, 741, 746, 747, 795, 801, 802, 858, 862, 884, 885, 975], 0x3746e0001061e4788791060000000004e00077800, 3⟩,
    ⟨[663, 666, 670, 673, 725, 730, 731, 795, 801, 802, 854, 880, 907], 0x20c3c8001061e47a0f31060000000004e00079000, 3⟩,
    ⟨[163, 451, 663, 666, 670, 673, 694, 701, 725, 730, 731, 791, 801, 802, 854, 880, 907, 989], 0x20c3f8001061fc7a0f61060000000004e0007a800, 3⟩,
    ⟨[163, 451, 663, 666, 670, 673, 694, 701, 725, 730, 731, 795, 801, 802, 854, 880, 907, 989], 0x20c3c8001061e47a0f31060000000004e0007a800, 3⟩,
    ⟨[50, 51, 115, 152, 168, 338, 339, 403, 440, 456, 610, 663, 666, 670, 673, 725, 730, 731, 791, 801, 802, 854, 880, 907, 1004, 1005], 0x20c3f8001061fc7c8f81060000000004e0007b800, 3⟩,
    ⟨[50, 51, 115, 152, 168, 338, 339, 403, 440, 456, 610, 663, 666, 670, 673, 725, 730, 731, 795, 801, 802, 854, 880, 907, 1004, 1005], 0x20c3c8001061e47c8fa1060000000004e0007b800, 3⟩,
    ⟨[50, 51, 115, 152, 168, 338, 339, 403, 440, 456, 610, 676, 679, 683, 725, 730, 731, 795, 801, 802, 854, 880, 907, 1004, 1005], 0x20c3c8001061e47e8fc1060000000004e0007d800, 3⟩,
    ⟨[163, 451, 694, 701, 725, 730, 731, 791, 801, 802, 854, 880, 907, 989], 0x20c3f8001061fc800ff1060000000004e0007f000, 3⟩,
    ⟨[163, 451, 694, 701, 725, 730, 731, 795, 801, 802, 854, 880, 907, 989], 0x20c3c8001061e4801011060000000004e0007f000, 3⟩,
    ⟨[725, 730, 731, 791, 801, 802, 854, 880, 907], 0x20c3f8001061fc800ff1060000000004e00081000, 3⟩,
    ⟨[725, 730, 731, 795, 801, 802, 854, 880, 907], 0x20c3c8001061e4801011060000000004e00081000, 3⟩,
    ⟨[2, 18, 25, 163, 306, 313, 451, 584, 694, 701, 725, 730, 731, 736, 738, 740, 743, 746, 747, 791, 801, 802, 854, 880, 907, 981, 989], 0x20c3f8001061fc829041060000000004e00081800, 3⟩,
    ⟨[2, 18, 25, 163, 306, 313, 451, 584, 694, 701, 725, 730, 731, 746, 747, 795, 801, 802, 854, 880, 907, 981, 989], 0x20c3c8001061e4801011060000000004e00081800, 3⟩,
    ⟨[663, 666, 670, 673, 725, 730, 731, 795, 801, 802], 0x20c3c8001061e4841071060000000004e00083000, 3⟩,
    ⟨[663, 666, 670, 673, 701, 725, 730, 731, 791, 801, 802], 0x20c3f8001061fc8410a1060000000004e00084800, 3⟩,
    ⟨[663, 666, 670, 673, 701, 725, 730, 731, 795, 801, 802], 0x20c3c8001061e4841071060000000004e00084800, 3⟩,
    ⟨[663, 666, 670, 673, 725, 730, 731, 791, 801, 802], 0x20c3f8001061fc8410a1060000000004e00083000, 3⟩,
    ⟨[676, 679, 683, 725, 730, 731, 795, 801, 802], 0x20c3c8001061e4418791060000000004e00085800, 3⟩,
    ⟨[701, 725, 730, 731, 791, 801, 802], 0x20c3f8001061fc4187f1060000000004e00086000, 3⟩,
    ⟨[701, 725, 730, 731, 795, 801, 802], 0x20c3c8001061e4418791060000000004e00086000, 3⟩,
    ⟨[728, 871, 872], 0x270180000000001c0380709d01c4340700e01c0000000000009400000, 0⟩,
    ⟨[725, 730, 731, 854, 868, 874, 878, 880, 890], 0x380700001c0381803001c0000000021e00087000, 3⟩,
    ⟨[725, 730, 731, 854, 878, 880], 0x380700001c0381803001c0000000004e00017800, 3⟩,
    ⟨[725, 730, 731, 854, 868, 874, 878, 880, 887], 0x380700001c0381803001c0000000021e00087000, 3⟩,
    ⟨[653, 655, 660, 726, 1008, 1010, 1012, 1015], 0x1844c8991200000000000000000000000004448891100044000000, 0⟩,
    ⟨[658, 725, 730, 731, 854, 868, 874, 878, 880, 890, 1006, 1013], 0x380700001c0381803001c0000000021e0008a000, 3⟩,
    ⟨[587, 726, 756, 759, 760, 787, 866, 869, 906, 910, 1088], 0x182b0560ac00000000000000000000000002ac558ab00045400000, 9⟩,
    ⟨[5, 61, 62, 65, 66, 87, 89, 94, 349, 350, 353, 354, 375, 377, 382, 653, 655, 660, 726, 760, 774, 775, 777, 779, 784, 787, 1008, 1010, 1012, 1015, 1088], 0x184648c918000000000000000000000000045c8b91700045800000, 10⟩,
    ⟨[37, 38, 325, 326, 728, 871, 872], 0x270180000000001c0380711c23446c8d11a2340000000000009400000, 0⟩,
    ⟨[725, 730, 731, 766, 772, 773, 854, 868, 874, 878, 880, 890, 975], 0x4889080023c2b49011f23c0000000021e0008e800, 3⟩,
    ⟨[64, 68, 90, 91, 352, 356, 378, 379, 602, 658, 725, 730, 731, 762, 772, 773, 854, 868, 874, 878, 880, 890, 1006, 1013], 0x4789280023c4949012423c0000000021e00091800, 3⟩,
    ⟨[64, 68, 90, 91, 352, 356, 378, 379, 602, 658, 725, 730, 731, 766, 772, 773, 854, 868, 874, 878, 880, 890, 975, 1006, 1013], 0x4889080023c2b49011f23c0000000021e00091800, 3⟩,
    ⟨[725, 730, 731, 762, 772, 773, 854, 868, 874, 878, 880, 890], 0x4789280023c4949012423c0000000021e0008e800, 3⟩,
    ⟨[725, 730, 731, 762, 772, 773], 0x4789280023c4948f12523c0000000004e00093000, 3⟩,
    ⟨[725, 730, 731, 766, 772, 773, 975], 0x4889080023c2b48f0ad23c0000000004e00093000, 3⟩,
    ⟨[727, 755], 0x1800056000, 0⟩,
    ⟨[319, 324, 590, 725, 730, 731, 761, 772, 773, 854, 878, 880], 0x4785400023c2a09012923c0000000025000093800, 3⟩,
    ⟨[726, 756, 759, 760, 787, 1088], 0x182b0560ac00000000000000000000000002b4568ad00045400000, 11⟩,
    ⟨[725, 730, 731, 761, 772, 773], 0x4785400023c2a08f0a823c0000000004e00093000, 3⟩,
    ⟨[727, 752], 0x1800056000, 0⟩,
    ⟨[725, 730, 731, 761, 772, 773, 854, 868, 874, 878, 880, 887], 0x4785400023c2a09012923c0000000021e0008e800, 3⟩,
    ⟨[726, 748, 749, 751, 753, 758, 760], 0x1816c2d85b00000000000000000000000002b4568ad0002b800000, 0⟩,
    ⟨[726, 821, 843, 846, 853, 866, 869, 906, 910, 1090], 0x182d85b0b600000000000000000000000002d45a8b50004a800000, 6⟩,
    ⟨[725, 730, 731, 827, 833, 834, 854, 868, 874, 878, 880, 890], 0x6c1c0000360e01b8360360000000021e00095800, 3⟩,
    ⟨[725, 730, 731, 823, 833, 834, 854, 868, 874, 878, 880, 890], 0x6c1d8000360ec1b83a0360000000021e00095800, 3⟩,
    ⟨[727, 842], 0x180005b000, 0⟩,
    ⟨[725, 730, 731, 822, 833, 834, 854, 878, 880], 0x6c0d0000360681b92c0360000000004e0001a800, 3⟩,
    ⟨[726, 821, 843, 846, 853, 1090], 0x182d85b0b600000000000000000000000000e01c0380004a800000, 4⟩,
    ⟨[725, 730, 731, 822, 833, 834, 854, 868, 874, 878, 880, 887], 0x6c0d0000360681b92c0360000000021e00095800, 3⟩,
    ⟨[653, 655, 660, 726, 821, 835, 836, 838, 840, 845, 853, 1008, 1010, 1012, 1015, 1090], 0x184c09812f00000000000000000000000004b89712e0004b400000, 4⟩,
    ⟨[658, 725, 730, 731, 823, 833, 834, 854, 868, 874, 878, 880, 890, 1006, 1013], 0x6c1d8000360ec1b83a0360000000021e00098800, 3⟩,
    ⟨[658, 725, 730, 731, 827, 833, 834, 854, 868, 874, 878, 880, 890, 1006, 1013], 0x6c1c0000360e01b8360360000000021e00098800, 3⟩,
    ⟨[587, 726, 756, 759, 760, 787, 821, 843, 846, 853, 866, 869, 906, 910, 1088, 1090], 0x18314628c50000000000000000000000000310620c40004c800000, 12⟩,
    ⟨[5, 61, 62, 65, 66, 87, 89, 94, 349, 350, 353, 354, 375, 377, 382, 653, 655, 660, 726, 760, 774, 775, 777, 779, 784, 787, 821, 835, 836, 838, 840, 845, 853, 1008, 1010, 1012, 1015, 1088, 1090], 0x184d89b13500000000000000000000000004d09a1340004cc00000, 13⟩,
    ⟨[725, 730, 731, 766, 772, 773, 827, 833, 834, 854, 868, 874, 878, 880, 890, 975], 0x4f09d8002703189d1392700000000021e0009b800, 3⟩,
    ⟨[64, 68, 90, 91, 352, 356, 378, 379, 602, 658, 725, 730, 731, 762, 772, 773, 823, 833, 834, 854, 868, 874, 878, 880, 890, 1006, 1013], 0x4e09f8002704fc9d13e2700000000021e0009e800, 3⟩,
    ⟨[64, 68, 90, 91, 352, 356, 378, 379, 602, 658, 725, 730, 731, 766, 772, 773, 827, 833, 834, 854, 868, 874, 878, 880, 890, 975, 1006, 1013], 0x4f09d8002703189d1392700000000021e0009e800, 3⟩,
    ⟨[725, 730, 731, 762, 772, 773, 823, 833, 834, 854, 868, 874, 878, 880, 890], 0x4e09f8002704fc9d13e2700000000021e0009b800, 3⟩,
    ⟨[725, 730, 731, 762, 772, 773, 823, 833, 834], 0x4e09f8002704fc9c13f2700000000004e000a0000, 3⟩,
    ⟨[725, 730, 731, 766, 772, 773, 827, 833, 834, 975], 0x4f09d8002703189c0c62700000000004e000a0000, 3⟩,
    ⟨[727, 755, 842], 0x1800062800, 0⟩,
    ⟨[319, 324, 590, 725, 730, 731, 761, 772, 773, 822, 833, 834, 854, 878, 880], 0x4e0608002703049d14227000000000250000a0800, 3⟩,
    ⟨[726, 756, 759, 760, 787, 821, 843, 846, 853, 1088, 1090], 0x18314628c50000000000000000000000000318630c60004c800000, 14⟩,
    ⟨[725, 730, 731, 761, 772, 773, 822, 833, 834], 0x4e0608002703049c0c12700000000004e000a0000, 3⟩,
    ⟨[727, 752, 839], 0x1800062800, 0⟩,
    ⟨[725, 730, 731, 761, 772, 773, 822, 833, 834, 854, 868, 874, 878, 880, 887], 0x4e0608002703049d1422700000000021e0009b800, 3⟩,
    ⟨[726, 748, 749, 751, 753, 758, 760, 821, 835, 836, 838, 840, 845, 853, 1090], 0x181a83506a0000000000000000000000000318630c600031c00000, 4⟩,
    ⟨[163, 451, 663, 666, 670, 673, 694, 707, 725, 730, 731, 791, 801, 802, 854, 880, 907, 989], 0x20c3f8001061fc7a0f61060000000004e0007a800, 3⟩,
    ⟨[163, 451, 663, 666, 670, 673, 694, 707, 725, 730, 731, 795, 801, 802, 854, 880, 907, 989], 0x20c3c8001061e47a0f31060000000004e0007a800, 3⟩,
    ⟨[163, 451, 694, 707, 725, 730, 731, 791, 801, 802, 854, 880, 907, 989], 0x20c3f8001061fc800ff1060000000004e0007f000, 3⟩,
    ⟨[163, 451, 694, 707, 725, 730, 731, 795, 801, 802, 854, 880, 907, 989], 0x20c3c8001061e4801011060000000004e0007f000, 3⟩,
    ⟨[2, 18, 25, 163, 306, 313, 451, 584, 694, 707, 725, 730, 731, 736, 738, 740, 743, 746, 747, 791, 801, 802, 854, 880, 907, 981, 989], 0x20c3f8001061fc829041060000000004e00081800, 3⟩,
    ⟨[2, 18, 25, 163, 306, 313, 451, 584, 694, 707, 725, 730, 731, 746, 747, 795, 801, 802, 854, 880, 907, 981, 989], 0x20c3c8001061e4801011060000000004e00081800, 3⟩,
    ⟨[171, 172, 175, 176, 197, 199, 204, 226, 227, 229, 459, 460, 463, 464, 485, 487, 492, 514, 515, 517, 594, 597, 726], 0x18030061450000000000000000000000000510a214400050c00000, 0⟩,
    ⟨[174, 178, 200, 201, 462, 466, 488, 489, 620, 725, 730, 731], 0x380700001c0380700e01c0000000004e000a3000, 3⟩,
    ⟨[56, 125, 164, 169, 344, 413, 452, 457, 611, 725, 730, 731], 0x380700001c0380700e01c0000000004e000a3800, 3⟩,
    ⟨[116, 117, 120, 121, 142, 144, 149, 404, 405, 408, 409, 430, 432, 437, 726], 0x180300614a0000000000000000000000000524a494900052000000, 0⟩,
    ⟨[119, 123, 145, 146, 407, 411, 433, 434, 611, 725, 730, 731], 0x380700001c0380700e01c0000000004e000a5800, 3⟩,
    ⟨[118, 143, 406, 431, 646, 727, 807, 857, 882], 0x18000a6000, 0⟩,
    ⟨[122, 128, 131, 150, 410, 416, 419, 438, 641, 725, 730, 731, 790, 801, 802, 861, 867, 870, 889, 1011, 1016, 1017, 1045, 1046], 0x5402480029c53ca714f29c0000000029a00041000, 3⟩,
    ⟨[127, 130, 167, 296, 415, 418, 455, 638, 651, 685, 686, 726, 789, 805, 809, 813, 820, 866, 869, 906, 910, 1009, 1089], 0x1854ca99530000000000000000000000000548a915200054400000, 15⟩,
    ⟨[651, 685, 686, 726, 789, 805, 809, 813, 820, 1089], 0x1854ca99530000000000000000000000000550aa15400054400000, 16⟩,
    ⟨[51, 55, 115, 141, 168, 339, 343, 403, 429, 456, 610, 725, 730, 731], 0x380700001c0386a0d401c0000000004e00069800, 3⟩,
    ⟨[43, 51, 55, 115, 141, 168, 331, 339, 343, 403, 429, 456, 610, 725, 729, 730, 731], 0x1a40380700001c0386a0d401c0000000004e00069800, 3⟩,
    ⟨[43, 51, 55, 115, 141, 168, 331, 339, 343, 403, 429, 456, 610, 725, 730, 731], 0x2aa0380700001c0386a0d401c0000000004e00069800, 3⟩,
    ⟨[725, 730, 731, 790, 801, 802, 948, 957, 959, 960, 976], 0x55cac0002ae560ab9582ae0000000004e000ab000, 17⟩,
    ⟨[725, 730, 731, 795, 801, 802, 953, 958, 959, 960, 977], 0x55cac8002ae564ab9592ae0000000004e000ab000, 17⟩,
    ⟨[124, 127, 130, 147, 167, 296, 412, 415, 418, 435, 455, 612, 615, 638, 651, 685, 686, 726, 789, 803, 804, 806, 808, 813, 820, 863, 866, 869, 886, 906, 910, 1007, 1014, 1089], 0x183a87515c000000000000000000000000056cad95b00056800000, 15⟩,
    ⟨[726, 789, 803, 804, 806, 808, 813, 820, 911, 925, 926, 928, 930, 935, 942, 946, 1089, 1091], 0x18578af15e0000000000000000000000000388710e200057400000, 18⟩,
    ⟨[725, 730, 731, 795, 801, 802, 917, 923, 924], 0x380710001c0388700e21c00000000004e0006f800, 3⟩,
    ⟨[725, 730, 731, 791, 801, 802, 913, 923, 924], 0x380af8001c057c7015f1c00000000004e0006f800, 3⟩,
    ⟨[725, 730, 731, 790, 801, 802, 912, 923, 924], 0x380708001c0384700e11c00000000004e0006f800, 3⟩,
    ⟨[725, 730, 731, 790, 801, 802, 912, 923, 924, 948, 957, 959, 960, 976], 0x584b10002c2588b09622c20000000004e000b0000, 17⟩,
    ⟨[725, 730, 731, 795, 801, 802, 917, 923, 924, 953, 958, 959, 960, 977], 0x584b18002c258cb09632c20000000004e000b0000, 17⟩,
    ⟨[122, 128, 131, 150, 410, 416, 419, 438, 641, 652, 654, 657, 659, 725, 730, 731, 790, 801, 802, 861, 867, 870, 889, 991, 1005], 0x20c248002ca5a0b39662ca0000000029a000b2000, 3⟩,
    ⟨[127, 130, 167, 296, 415, 418, 455, 638, 651, 685, 686, 726, 789, 805, 809, 813, 820, 866, 869, 906, 910, 1089], 0x1854ca995300000000000000000000000005a4b496900054400000, 15⟩,
    ⟨[124, 127, 130, 147, 167, 296, 412, 415, 418, 435, 455, 612, 615, 638, 651, 685, 686, 726, 789, 803, 804, 806, 808, 813, 820, 863, 866, 869, 886, 906, 910, 1089], 0x183a87515c00000000000000000000000005a8b516a00056800000, 15⟩,
    ⟨[725, 730, 731, 793, 794], 0x20c3c8001061e4418791060000000004e00006000, 3⟩,
    ⟨[727, 807], 0x18000a9800, 0⟩,
    ⟨[726, 789, 805, 809, 813, 820, 1089], 0x1854ca995300000000000000000000000001e43c87900054400000, 4⟩,
    ⟨[118, 143, 406, 431, 586, 646, 727, 752, 807, 857, 882], 0x18000b5800, 0⟩,
    ⟨[4, 31, 36, 52, 53, 60, 86, 113, 122, 128, 131, 150, 319, 324, 340, 341, 348, 374, 401, 410, 416, 419, 438, 601, 641, 652, 654, 657, 659, 725, 730, 731, 761, 772, 773, 790, 801, 802, 861, 867, 870, 889, 973, 974, 991, 1005], 0x5ccb90002dc5c4b816f2dc000000002da000b6000, 3⟩,
    ⟨[127, 130, 167, 296, 415, 418, 455, 589, 638, 651, 685, 686, 726, 750, 754, 758, 760, 789, 805, 809, 813, 820, 866, 869, 906, 910, 1089], 0x185d8bb17600000000000000000000000005d4ba9750005d000000, 15⟩,
    ⟨[651, 685, 686, 726, 750, 754, 758, 760, 789, 805, 809, 813, 820, 1089], 0x185d8bb17600000000000000000000000005dcbb9770005d000000, 16⟩,
    ⟨[124, 127, 130, 147, 167, 296, 412, 415, 418, 435, 455, 612, 615, 638, 651, 685, 686, 726, 748, 749, 751, 753, 758, 760, 789, 803, 804, 806, 808, 813, 820, 863, 866, 869, 886, 906, 910, 1089], 0x185ecbd97a00000000000000000000000005e4bc9790005e000000, 15⟩,
    ⟨[725, 730, 731, 745, 793, 794], 0x20c3c8001061e4788791060000000004e00006000, 3⟩,
    ⟨[725, 730, 731, 746, 747, 795, 801, 802], 0x20c3c8001061e4418791060000000004e000be000, 3⟩,
    ⟨[664, 667, 671, 726, 789, 803, 804, 806, 808, 813, 820, 855, 856, 859, 860, 881, 883, 888, 1089], 0x183606c17f00000000000000000000000005f8bf17e0005f400000, 4⟩,
    ⟨[674, 725, 730, 731, 790, 801, 802, 858, 862, 884, 885], 0x20c24800106124418491060000000004e000c0000, 3⟩,
    ⟨[674, 725, 730, 731, 795, 801, 802, 858, 862, 884, 885], 0x20c3c8001061e4418791060000000004e000c0000, 3⟩,
    ⟨[167, 296, 455, 638, 651, 664, 667, 671, 685, 686, 726, 789, 803, 804, 806, 808, 813, 820, 855, 856, 859, 860, 881, 883, 888, 990, 1089], 0x183606c17f0000000000000000000000000604c09810005f400000, 19⟩,
    ⟨[674, 725, 730, 731, 792, 801, 802, 858, 862, 884, 885], 0x3a0070001d00387400e1d00000000004e000c0000, 3⟩,
    ⟨[116, 117, 120, 121, 153, 155, 159, 404, 405, 408, 409, 441, 443, 447, 664, 667, 671, 726, 789, 803, 804, 806, 808, 813, 820, 855, 856, 859, 860, 881, 883, 888, 1008, 1010, 1012, 1015, 1089], 0x183606c0d7000000000000000000000000060cc198300060800000, 4⟩,
    ⟨[119, 123, 156, 407, 411, 444, 611, 674, 725, 730, 731, 792, 801, 802, 858, 862, 884, 885, 1006, 1013], 0x3a0070001d00387400e1d00000000004e000c2000, 3⟩,
    ⟨[119, 123, 156, 407, 411, 444, 611, 674, 725, 730, 731, 795, 801, 802, 858, 862, 884, 885, 1006, 1013], 0x20c3c8001061e4418791060000000004e000c2000, 3⟩,
    ⟨[119, 123, 156, 407, 411, 444, 611, 674, 725, 730, 731, 790, 801, 802, 858, 862, 884, 885, 1006, 1013], 0x20c24800106124418491060000000004e000c2000, 3⟩,
    ⟨[116, 117, 120, 121, 153, 155, 159, 404, 405, 408, 409, 441, 443, 447, 677, 680, 684, 726, 789, 803, 804, 806, 808, 813, 820, 855, 856, 859, 860, 881, 883, 888, 1008, 1010, 1012, 1015, 1089], 0x183606c0d7000000000000000000000000060cc198300061400000, 4⟩,
    ⟨[119, 123, 156, 407, 411, 444, 611, 725, 730, 731, 790, 801, 802, 858, 862, 884, 885, 1006, 1013], 0x20c24800106124418491060000000004e000c3000, 3⟩,
    ⟨[119, 123, 156, 407, 411, 444, 611, 725, 730, 731, 795, 801, 802, 858, 862, 884, 885, 1006, 1013], 0x20c3c8001061e4418791060000000004e000c3000, 3⟩,
    ⟨[167, 296, 455, 638, 651, 685, 686, 726, 789, 803, 804, 806, 808, 813, 820, 855, 856, 859, 860, 881, 883, 888, 990, 1089], 0x183a8751890000000000000000000000000620c418800061c00000, 19⟩,
    ⟨[725, 730, 731, 792, 801, 802, 858, 862, 884, 885], 0x3a0070001d00387400e1d00000000004e000c5000, 3⟩,
    ⟨[725, 730, 731, 795, 801, 802, 858, 862, 884, 885], 0x20c3c8001061e4418791060000000004e000c5000, 3⟩,
    ⟨[725, 730, 731, 790, 801, 802, 858, 862, 884, 885], 0x20c24800106124418491060000000004e000c5000, 3⟩,
    ⟨[726, 789, 803, 804, 806, 808, 813, 820, 855, 856, 859, 860, 881, 883, 888, 1089], 0x183a875189000000000000000000000000062cc598b00061c00000, 4⟩,
    ⟨[3, 26, 28, 35, 167, 296, 314, 316, 323, 455, 585, 588, 638, 651, 685, 686, 726, 748, 749, 751, 753, 758, 760, 789, 803, 804, 806, 808, 813, 820, 855, 856, 859, 860, 881, 883, 888, 982, 990, 1089], 0x185ecbd98e0000000000000000000000000634c698d00063000000, 19⟩,
    ⟨[725, 730, 731, 744, 746, 747, 792, 801, 802, 858, 862, 884, 885], 0x3a0070001d00387800e1d00000000004e000c7800, 3⟩,
    ⟨[725, 730, 731, 741, 746, 747, 795, 801, 802, 858, 862, 884, 885], 0x20c3c8001061e4788791060000000004e000c7800, 3⟩,
    ⟨[664, 667, 671, 726, 789, 803, 804, 806, 808, 813, 820, 1089], 0x183606c0d80000000000000000000000000644c899100064000000, 4⟩,
    ⟨[674, 725, 730, 731, 790, 801, 802], 0x20c24800106124418491060000000004e000c9000, 3⟩,
    ⟨[674, 725, 730, 731, 795, 801, 802], 0x20c3c8001061e4418791060000000004e000c9000, 3⟩,
    ⟨[664, 667, 671, 685, 686, 726, 789, 803, 804, 806, 808, 813, 820, 1089], 0x183606c0d80000000000000000000000000644c899100064000000, 16⟩,
    ⟨[674, 725, 730, 731, 792, 801, 802], 0x3a0070001d00387400e1d00000000004e000c9000, 3⟩,
    ⟨[677, 680, 684, 726, 789, 803, 804, 806, 808, 813, 820, 1089], 0x183606c0d80000000000000000000000000644c899100064c00000, 4⟩,
    ⟨[685, 686, 726, 789, 803, 804, 806, 808, 813, 820, 1089], 0x183a8750ea00000000000000000000000001e43c8790003a400000, 16⟩,
    ⟨[725, 729, 730, 731, 873], 0x3280380700001c0380700e01c0000000004e00006000, 3⟩,
    ⟨[726, 855, 856, 859, 860, 881, 883, 888, 906, 910], 0x180300605500000000000000000000000001502a05400014c00000, 5⟩,
    ⟨[728, 875, 876], 0x270180000000013a274cb09d13a6544e89d13a0000000000009400000, 0⟩,
    ⟨[656, 727], 0x1800089800, 0⟩,
    ⟨[641, 725, 730, 731, 1011, 1016, 1017, 1045, 1046], 0x6640700032e660cb99832e0000000004e00006000, 3⟩,
    ⟨[651, 685, 686, 726, 1009], 0x180300600c0000000000000000000000000668cd19a00009400000, 20⟩,
    ⟨[651, 685, 686, 726], 0x180300600c000000000000000000000000066ccd99b00009400000, 20⟩,
    ⟨[651, 685, 686, 726, 855, 856, 859, 860, 881, 883, 888, 906, 910, 1007, 1014], 0x18030060550000000000000000000000000670ce19c00014c00000, 21⟩,
    ⟨[727, 757], 0x1800056000, 0⟩,
    ⟨[63, 88, 351, 376, 656, 727, 778], 0x18000ce800, 0⟩,
    ⟨[67, 73, 76, 95, 355, 361, 364, 383, 641, 725, 730, 731, 761, 772, 773, 1011, 1016, 1017, 1045, 1046], 0x6845400033e680cf9a033e0000000033c00093000, 3⟩,
    ⟨[72, 75, 112, 295, 360, 363, 400, 637, 651, 685, 686, 726, 760, 776, 780, 784, 787, 1009, 1088], 0x18690d21a4000000000000000000000000068cd19a300068800000, 22⟩,
    ⟨[651, 685, 686, 726, 760, 776, 780, 784, 787, 1088], 0x18690d21a40000000000000000000000000694d29a500068800000, 23⟩,
    ⟨[52, 53, 60, 86, 113, 340, 341, 348, 374, 401, 601, 725, 730, 731], 0x380700001c038d39a701c0000000004e000d3000, 3⟩,
    ⟨[39, 52, 53, 60, 86, 113, 327, 340, 341, 348, 374, 401, 601, 725, 729, 730, 731, 873], 0x3500380700001c038d39a701c0000000004e000d3000, 3⟩,
    ⟨[52, 53, 60, 86, 113, 340, 341, 348, 374, 401, 601, 725, 730, 731, 854, 878, 880], 0x380700001c038d51aa01c0000000004e000d4800, 3⟩,
    ⟨[726, 760, 774, 775, 777, 779, 784, 787, 855, 856, 859, 860, 881, 883, 888, 906, 910, 1088], 0x186b8d71ad00000000000000000000000006b0d61ac0006ac00000, 9⟩,
    ⟨[725, 730, 731, 766, 772, 773], 0x4785680023c2b48f0ad23c0000000004e00093000, 3⟩,
    ⟨[725, 730, 731, 761, 772, 773, 858, 862, 884, 885], 0x4785400023c2a08f0a823c0000000004e000d7800, 3⟩,
    ⟨[725, 730, 731, 766, 772, 773, 858, 862, 884, 885], 0x4785680023c2b48f0ad23c0000000004e000d7800, 3⟩,
    ⟨[725, 730, 731, 761, 772, 773, 948, 957, 959, 960, 976], 0x6c4d90003626c8d89b23620000000004e000d8000, 17⟩,
    ⟨[725, 730, 731, 766, 772, 773, 953, 958, 959, 960, 977], 0x6c4d98003626ccd89b33620000000004e000d8000, 17⟩,
    ⟨[69, 72, 75, 92, 112, 295, 357, 360, 363, 380, 400, 603, 606, 637, 651, 685, 686, 726, 760, 774, 775, 777, 779, 784, 787, 855, 856, 859, 860, 881, 883, 888, 906, 910, 1007, 1014, 1088], 0x186b8d71b600000000000000000000000006d4da9b50006d000000, 24⟩,
    ⟨[725, 730, 731, 763, 772, 773, 858, 862, 884, 885], 0x6dc0700036e038db80e36e0000000004e000d7800, 3⟩,
    ⟨[725, 730, 731, 763, 772, 773], 0x6dc0700036e038db80e36e0000000004e00093000, 3⟩,
    ⟨[726, 760, 774, 775, 777, 779, 784, 787, 1088], 0x186b8d71ae00000000000000000000000002b4568ad0006e000000, 11⟩,
    ⟨[726, 760, 774, 775, 777, 779, 784, 787, 855, 856, 859, 860, 881, 883, 888, 1088], 0x186b8d71ad00000000000000000000000006b0d61ac0006ac00000, 11⟩,
    ⟨[325, 326, 728], 0x270180000000001c038071b93726e8dc9b93720000000000009400000, 0⟩,
    ⟨[725, 730, 731, 762, 772, 773, 858, 862, 884, 885], 0x4789280023c4948f12523c0000000004e000d7800, 3⟩,
    ⟨[727, 844], 0x180005b000, 0⟩,
    ⟨[726, 821, 835, 836, 838, 840, 845, 853, 855, 856, 859, 860, 881, 883, 888, 906, 910, 1090], 0x181883106100000000000000000000000001803006000017c00000, 6⟩,
    ⟨[725, 730, 731, 823, 833, 834, 858, 862, 884, 885], 0x6c1d8000360ec0d83b0360000000004e00031800, 3⟩,
    ⟨[656, 727, 839], 0x18000dd800, 0⟩,
    ⟨[641, 725, 730, 731, 822, 833, 834, 1011, 1016, 1017, 1045, 1046], 0x6f80d0003786f4de1bd3780000000004e0001e000, 3⟩,
    ⟨[651, 685, 686, 726, 821, 837, 841, 845, 853, 1009, 1090], 0x182d85b0b600000000000000000000000006fcdf9bf0002d000000, 16⟩,
    ⟨[651, 685, 686, 726, 821, 837, 841, 845, 853, 1090], 0x182d85b0b60000000000000000000000000700e01c00002d000000, 16⟩,
    ⟨[651, 685, 686, 726, 821, 835, 836, 838, 840, 845, 853, 855, 856, 859, 860, 881, 883, 888, 906, 910, 1007, 1014, 1090], 0x18188310610000000000000000000000000704e09c100017c00000, 25⟩,
    ⟨[727, 757, 844], 0x1800062800, 0⟩,
    ⟨[63, 88, 351, 376, 656, 727, 778, 839], 0x18000e1000, 0⟩,
    ⟨[67, 73, 76, 95, 355, 361, 364, 383, 641, 725, 730, 731, 761, 772, 773, 822, 833, 834, 1011, 1016, 1017, 1045, 1046], 0x71460800386710e19c43860000000033c000a0000, 3⟩,
    ⟨[72, 75, 112, 295, 360, 363, 400, 637, 651, 685, 686, 726, 760, 776, 780, 784, 787, 821, 837, 841, 845, 853, 1009, 1088, 1090], 0x18720e41c8000000000000000000000000071ce39c700071800000, 26⟩,
    ⟨[651, 685, 686, 726, 760, 776, 780, 784, 787, 821, 837, 841, 845, 853, 1088, 1090], 0x18720e41c80000000000000000000000000724e49c900071800000, 27⟩,
    ⟨[726, 760, 774, 775, 777, 779, 784, 787, 821, 835, 836, 838, 840, 845, 853, 855, 856, 859, 860, 881, 883, 888, 906, 910, 1088, 1090], 0x18734e69cc000000000000000000000000072ce59cb00072800000, 12⟩,
    ⟨[725, 730, 731, 766, 772, 773, 827, 833, 834], 0x4e0630002703189c0c62700000000004e000a0000, 3⟩,
    ⟨[725, 730, 731, 761, 772, 773, 822, 833, 834, 858, 862, 884, 885], 0x4e0608002703049c0c12700000000004e000e7000, 3⟩,
    ⟨[725, 730, 731, 766, 772, 773, 827, 833, 834, 858, 862, 884, 885], 0x4e0630002703189c0c62700000000004e000e7000, 3⟩,
    ⟨[725, 730, 731, 761, 772, 773, 822, 833, 834, 948, 957, 959, 960, 976], 0x740e88003a0744e81d13a00000000004e000e7800, 17⟩,
    ⟨[725, 730, 731, 766, 772, 773, 827, 833, 834, 953, 958, 959, 960, 977], 0x740e90003a0748e81d23a00000000004e000e7800, 17⟩,
    ⟨[69, 72, 75, 92, 112, 295, 357, 360, 363, 380, 400, 603, 606, 637, 651, 685, 686, 726, 760, 774, 775, 777, 779, 784, 787, 821, 835, 836, 838, 840, 845, 853, 855, 856, 859, 860, 881, 883, 888, 906, 910, 1007, 1014, 1088, 1090], 0x18734e69d50000000000000000000000000750ea1d400074c00000, 28⟩,
    ⟨[725, 730, 731, 763, 772, 773, 824, 833, 834, 858, 862, 884, 885], 0x758070003ac038eb00e3ac0000000004e000e7000, 3⟩,
    ⟨[725, 730, 731, 763, 772, 773, 824, 833, 834], 0x758070003ac038eb00e3ac0000000004e000a0000, 3⟩,
    ⟨[726, 760, 774, 775, 777, 779, 784, 787, 821, 835, 836, 838, 840, 845, 853, 1088, 1090], 0x18734e69cd0000000000000000000000000318630c600075c00000, 14⟩,
    ⟨[726, 760, 774, 775, 777, 779, 784, 787, 821, 835, 836, 838, 840, 845, 853, 855, 856, 859, 860, 881, 883, 888, 1088, 1090], 0x18734e69cc000000000000000000000000072ce59cb00072800000, 14⟩,
    ⟨[725, 730, 731, 762, 772, 773, 823, 833, 834, 858, 862, 884, 885], 0x4e09f8002704fc9c13f2700000000004e000e7000, 3⟩,
    ⟨[173, 198, 461, 486, 595, 727], 0x18000ec000, 0⟩,
    ⟨[177, 183, 186, 205, 228, 230, 234, 236, 262, 289, 465, 471, 474, 493, 516, 518, 522, 524, 550, 577, 628, 725, 730, 731], 0x38070003b676cee1dc3b6000000003b4000ec800, 3⟩,
    ⟨[182, 185, 222, 297, 470, 473, 510, 598, 639, 726], 0x180300600c0000000000000000000000000774ee9dd00009400000, 29⟩,
    ⟨[179, 182, 185, 202, 222, 297, 467, 470, 473, 490, 510, 621, 624, 639, 726], 0x18030061e0000000000000000000000000077cef9df00077800000, 29⟩,
    ⟨[126, 127, 130, 165, 167, 296, 414, 415, 418, 453, 455, 612, 615, 638, 726], 0x18030061e30000000000000000000000000788f11e200078400000, 30⟩,
    ⟨[118, 143, 406, 431, 727], 0x18000a5000, 0⟩,
    ⟨[122, 128, 131, 150, 410, 416, 419, 438, 725, 730, 731], 0x38070003ca794f29e53ca000000003c800006000, 3⟩,
    ⟨[127, 130, 167, 296, 415, 418, 455, 638, 726], 0x180300600c0000000000000000000000000798f31e600009400000, 30⟩,
    ⟨[124, 127, 130, 147, 167, 296, 412, 415, 418, 435, 455, 612, 615, 638, 726], 0x18030061e3000000000000000000000000079cf39e700078400000, 30⟩,
    ⟨[127, 130, 167, 296, 415, 418, 455, 638, 651, 685, 686, 726, 789, 811, 814, 820, 866, 869, 906, 910, 1089], 0x1854ca995300000000000000000000000005a4b49690007a000000, 15⟩,
    ⟨[132, 133, 420, 421, 728, 871, 872], 0x270180000000001c038071ea01c7a40700e01c0000000000009400000, 0⟩,
    ⟨[115, 129, 135, 139, 141, 151, 403, 417, 423, 427, 429, 439, 610, 642, 644, 647, 649, 725, 730, 731, 795, 801, 802, 854, 868, 874, 878, 880, 890, 1005, 1018, 1047, 1077, 1078], 0x7c0f78003da1e4f70773da000000003d8000f5800, 3⟩,
    ⟨[115, 129, 135, 139, 141, 151, 403, 417, 423, 427, 429, 439, 610, 642, 644, 647, 649, 725, 730, 731, 791, 801, 802, 854, 868, 874, 878, 880, 890, 1005, 1018, 1077, 1078], 0x7b43f8003da1fcf70813da000000003d8000f5800, 3⟩,
    ⟨[725, 730, 731, 795, 801, 802, 1047], 0x7c4f78001061e4418791060000000004e00041000, 3⟩,
    ⟨[727, 810], 0x18000a9800, 0⟩,
    ⟨[115, 139, 141, 403, 427, 429, 610, 652, 654, 657, 659, 725, 730, 731, 790, 801, 802, 854, 878, 880, 1005], 0x20c24800106124fa1f31060000000004e000f9000, 3⟩,
    ⟨[726, 789, 811, 814, 820, 1089], 0x1854ca995300000000000000000000000001e43c8790007a000000, 4⟩,
    ⟨[652, 654, 657, 659, 725, 730, 731, 790, 801, 802], 0x20c24800106124fb9f61060000000004e000fa800, 3⟩,
    ⟨[56, 125, 164, 169, 344, 413, 452, 457, 611], 0xfc000, 0⟩,
    ⟨[726, 789, 803, 804, 806, 808, 813, 820, 947, 961, 962, 964, 966, 971, 978, 986, 1089, 1092], 0x187e8fd1fa0000000000000000000000000564ac9590007e400000, 31⟩,
    ⟨[725, 730, 731, 795, 801, 802, 953, 959, 960], 0x55cac8002ae564ab9592ae0000000004e000ab000, 3⟩,
    ⟨[725, 730, 731, 791, 801, 802, 949, 959, 960], 0x55cfd8002ae7ecab9fb2ae0000000004e000ab000, 3⟩,
    ⟨[725, 730, 731, 790, 801, 802, 948, 959, 960], 0x55cac0002ae560ab9582ae0000000004e000ab000, 3⟩,
    ⟨[613, 727, 807], 0x18000fe000, 0⟩,
    ⟨[115, 129, 135, 139, 141, 148, 403, 417, 423, 427, 429, 436, 610, 652, 654, 657, 659, 725, 730, 731, 790, 801, 802, 854, 868, 874, 878, 880, 887, 1005, 1018, 1077, 1078], 0x7b4248003da124ff1f33da000000003d8000fe800, 3⟩,
    ⟨[616, 726, 789, 805, 809, 813, 820, 1089], 0x1854ca995300000000000000000000000007fcff9ff00054400000, 4⟩,
    ⟨[727, 807, 929], 0x1800100000, 0⟩,
    ⟨[726, 789, 805, 809, 813, 820, 911, 927, 931, 935, 942, 946, 1089, 1091], 0x18801002000000000000000000000000000388710e200080400000, 18⟩,
    ⟨[725, 730, 731, 792, 801, 802, 914, 923, 924], 0x808070004040390100e4040000000004e0006f800, 3⟩,
    ⟨[726, 789, 803, 804, 806, 808, 813, 820, 911, 925, 926, 928, 930, 935, 942, 946, 947, 961, 962, 964, 966, 971, 978, 986, 1089, 1091, 1092], 0x1881102204000000000000000000000000058cb196300080c00000, 32⟩,
    ⟨[725, 730, 731, 795, 801, 802, 917, 923, 924, 953, 959, 960], 0x584b18002c258cb09632c20000000004e000b0000, 3⟩,
    ⟨[725, 730, 731, 791, 801, 802, 913, 923, 924, 949, 959, 960], 0x585028002c2814b0a052c20000000004e000b0000, 3⟩,
    ⟨[725, 730, 731, 790, 801, 802, 912, 923, 924, 948, 959, 960], 0x584b10002c2588b09622c20000000004e000b0000, 3⟩,
    ⟨[653, 655, 660, 726, 789, 803, 804, 806, 808, 813, 820, 1008, 1010, 1012, 1015, 1089], 0x183606c208000000000000000000000000081d03a0700081800000, 4⟩,
    ⟨[115, 129, 135, 139, 141, 151, 403, 417, 423, 427, 429, 439, 610, 642, 644, 647, 649, 725, 730, 731, 795, 801, 802, 854, 868, 874, 878, 880, 890], 0x20c3c8001061e505080106000000003d800104800, 3⟩,
    ⟨[115, 129, 135, 139, 141, 151, 403, 417, 423, 427, 429, 439, 610, 642, 644, 647, 649, 658, 725, 730, 731, 791, 801, 802, 854, 868, 874, 878, 880, 890, 1006, 1013], 0x20c3f8001061fd0507d106000000003d800105800, 3⟩,
    ⟨[115, 129, 135, 139, 141, 151, 403, 417, 423, 427, 429, 439, 610, 642, 644, 647, 649, 658, 725, 730, 731, 795, 801, 802, 854, 868, 874, 878, 880, 890, 1006, 1013], 0x20c3c8001061e505080106000000003d800105800, 3⟩,
    ⟨[115, 129, 135, 139, 141, 151, 403, 417, 423, 427, 429, 439, 610, 642, 644, 647, 649, 725, 730, 731, 791, 801, 802, 854, 868, 874, 878, 880, 890], 0x20c3f8001061fd0507d106000000003d800104800, 3⟩,
    ⟨[115, 139, 141, 403, 427, 429, 610, 652, 654, 657, 659, 725, 730, 731, 790, 801, 802, 854, 878, 880], 0x20c248001061250720d1060000000004e00106000, 3⟩,
    ⟨[115, 129, 135, 139, 141, 148, 403, 417, 423, 427, 429, 436, 610, 652, 654, 657, 659, 725, 730, 731, 790, 801, 802, 854, 868, 874, 878, 880, 887], 0x20c248001061250720d106000000003d800107800, 3⟩,
    ⟨[127, 130, 167, 296, 415, 418, 455, 587, 638, 651, 685, 686, 726, 756, 759, 760, 787, 789, 811, 814, 820, 866, 869, 906, 910, 1088, 1089], 0x185d8bb17600000000000000000000000005d4ba97500084000000, 33⟩,
    ⟨[5, 61, 62, 65, 66, 87, 89, 94, 349, 350, 353, 354, 375, 377, 382, 653, 655, 660, 726, 760, 774, 775, 777, 779, 784, 787, 789, 803, 804, 806, 808, 813, 820, 1008, 1010, 1012, 1015, 1088, 1089], 0x188510a21300000000000000000000000008490921200084400000, 13⟩,
    ⟨[37, 38, 132, 133, 325, 326, 420, 421, 728, 871, 872], 0x270180000000001c038072162348548d11a2340000000000009400000, 0⟩,
    ⟨[115, 129, 135, 139, 141, 151, 403, 417, 423, 427, 429, 439, 610, 642, 644, 647, 649, 725, 730, 731, 766, 772, 773, 795, 801, 802, 854, 868, 874, 878, 880, 890, 975], 0x8750e00043086d0d219430000000003d80010b800, 3⟩,
    ⟨[64, 68, 90, 91, 115, 129, 135, 139, 141, 151, 352, 356, 378, 379, 403, 417, 423, 427, 429, 439, 602, 610, 642, 644, 647, 649, 658, 725, 730, 731, 762, 772, 773, 791, 801, 802, 854, 868, 874, 878, 880, 890, 1006, 1013], 0x861100004308810d21f430000000003d80010f000, 3⟩,
    ⟨[64, 68, 90, 91, 115, 129, 135, 139, 141, 151, 352, 356, 378, 379, 403, 417, 423, 427, 429, 439, 602, 610, 642, 644, 647, 649, 658, 725, 730, 731, 766, 772, 773, 795, 801, 802, 854, 868, 874, 878, 880, 890, 975, 1006, 1013], 0x8750e00043086d0d219430000000003d80010f000, 3⟩,
    ⟨[115, 129, 135, 139, 141, 151, 403, 417, 423, 427, 429, 439, 610, 642, 644, 647, 649, 725, 730, 731, 762, 772, 773, 791, 801, 802, 854, 868, 874, 878, 880, 890], 0x861100004308810d21f430000000003d80010b800, 3⟩,
    ⟨[725, 730, 731, 762, 772, 773, 791, 801, 802], 0x861100004308810c2204300000000004e00110800, 3⟩,
    ⟨[725, 730, 731, 766, 772, 773, 795, 801, 802, 975], 0x8750e00043086d0c21b4300000000004e00110800, 3⟩,
    ⟨[727, 755, 810], 0x18000bb000, 0⟩,
    ⟨[115, 139, 141, 319, 324, 403, 427, 429, 590, 610, 652, 654, 657, 659, 725, 730, 731, 761, 772, 773, 790, 801, 802, 854, 878, 880], 0x860b90004305c9122234300000000025000111000, 3⟩,
    ⟨[726, 756, 759, 760, 787, 789, 811, 814, 820, 1088, 1089], 0x185d8bb176000000000000000000000000086d0da1b00084000000, 14⟩,
    ⟨[652, 654, 657, 659, 725, 730, 731, 761, 772, 773, 790, 801, 802], 0x860b90004305c913a264300000000004e00112800, 3⟩,
    ⟨[613, 727, 752, 807], 0x1800114000, 0⟩,
    ⟨[115, 129, 135, 139, 141, 148, 403, 417, 423, 427, 429, 436, 610, 652, 654, 657, 659, 725, 730, 731, 761, 772, 773, 790, 801, 802, 854, 868, 874, 878, 880, 887], 0x860b90004305c912223430000000003d800114800, 3⟩,
    ⟨[616, 726, 750, 754, 758, 760, 789, 805, 809, 813, 820, 1089], 0x185d8bb17600000000000000000000000008a91522a0005d000000, 4⟩,
    ⟨[726, 750, 754, 758, 760, 789, 805, 809, 813, 820, 1089], 0x185d8bb176000000000000000000000000086d0da1b0005d000000, 4⟩,
    ⟨[726, 748, 749, 751, 753, 758, 760, 789, 803, 804, 806, 808, 813, 820, 1089], 0x185ecbd97b000000000000000000000000086d0da1b0008ac00000, 4⟩,
    ⟨[668, 727, 807, 857, 882], 0x1800116000, 0⟩,
    ⟨[641, 725, 730, 731, 790, 801, 802, 861, 867, 870, 889], 0x20c2480045a8b916a2e45a0000000013600041000, 3⟩,
    ⟨[651, 685, 686, 726, 789, 805, 809, 813, 820, 866, 869, 906, 910, 1089], 0x1854ca995300000000000000000000000008bd17a2f00054400000, 25⟩,
    ⟨[651, 685, 686, 726, 789, 803, 804, 806, 808, 813, 820, 863, 866, 869, 886, 906, 910, 1089], 0x183a8750ea00000000000000000000000008c1182300003a400000, 25⟩,
    ⟨[641, 652, 654, 657, 659, 725, 730, 731, 790, 801, 802, 861, 867, 870, 889, 991, 1005], 0x20c2480045a8b91923145a00000000136000b2000, 3⟩,
    ⟨[118, 154, 406, 442, 668, 727, 807, 857, 882], 0x18000a6000, 0⟩,
    ⟨[122, 128, 131, 160, 410, 416, 419, 448, 641, 725, 730, 731, 790, 801, 802, 861, 867, 870, 889, 1011, 1016, 1017, 1045, 1046], 0x540248004668d119a344660000000029a00041000, 3⟩,
    ⟨[124, 127, 130, 157, 412, 415, 418, 445, 612, 615, 651, 685, 686, 726, 789, 803, 804, 806, 808, 813, 820, 863, 866, 869, 886, 906, 910, 1007, 1014, 1089], 0x183a87515c00000000000000000000000008d51aa3500056800000, 25⟩,
    ⟨[118, 154, 406, 442, 681, 727, 807, 857, 882], 0x18000a6000, 0⟩,
    ⟨[124, 127, 130, 157, 412, 415, 418, 445, 612, 615, 726, 789, 803, 804, 806, 808, 813, 820, 863, 866, 869, 886, 906, 910, 1007, 1014, 1089], 0x183a87515c00000000000000000000000008d91b23600056800000, 6⟩,
    ⟨[727, 807, 857, 882], 0x180011b800, 0⟩,
    ⟨[652, 654, 657, 659, 725, 730, 731, 790, 801, 802, 861, 867, 870, 889, 991, 1005], 0x20c248004708ed1d23947000000000136000b2000, 3⟩,
    ⟨[726, 789, 805, 809, 813, 820, 866, 869, 906, 910, 1089], 0x1854ca995300000000000000000000000008f11e23c00054400000, 6⟩,
    ⟨[726, 789, 803, 804, 806, 808, 813, 820, 863, 866, 869, 886, 906, 910, 1089], 0x183a8750ea00000000000000000000000008f51ea3d0003a400000, 6⟩,
    ⟨[725, 730, 731, 790, 801, 802, 861, 867, 870, 889], 0x20c248004708ed1c23b4700000000013600041000, 3⟩,
    ⟨[586, 727, 752, 807, 857, 882], 0x180011f000, 0⟩,
    ⟨[4, 31, 36, 52, 53, 60, 86, 113, 319, 324, 340, 341, 348, 374, 401, 601, 652, 654, 657, 659, 725, 730, 731, 761, 772, 773, 790, 801, 802, 861, 867, 870, 889, 973, 974, 991, 1005], 0x5ccb900047e90920a4047e00000000146000b6000, 3⟩,
    ⟨[589, 726, 750, 754, 758, 760, 789, 805, 809, 813, 820, 866, 869, 906, 910, 1089], 0x185d8bb176000000000000000000000000090d21a430005d000000, 6⟩,
    ⟨[726, 748, 749, 751, 753, 758, 760, 789, 803, 804, 806, 808, 813, 820, 863, 866, 869, 886, 906, 910, 1089], 0x185ecbd97b0000000000000000000000000911222440008ac00000, 6⟩,
    ⟨[668, 727, 807], 0x1800122800, 0⟩,
    ⟨[641, 725, 730, 731, 790, 801, 802], 0x20c2480048c91d2324748c0000000004e00041000, 3⟩,
    ⟨[651, 685, 686, 726, 789, 803, 804, 806, 808, 813, 820, 1089], 0x183a8750ea0000000000000000000000000550aa1540003a400000, 16⟩,
    ⟨[681, 727, 807], 0x1800122800, 0⟩,
    ⟨[725, 730, 731, 864, 879, 903], 0x380700001c0380700e01c0000000004e00124000, 3⟩,
    ⟨[725, 729, 730, 731, 854, 877, 878, 880], 0x3280380700001c0381803001c0000000004e00017800, 3⟩,
    ⟨[725, 730, 731, 854, 877, 878, 880], 0x4920380700001c0381803001c0000000004e00017800, 3⟩,
    ⟨[642, 644, 647, 649, 725, 730, 731, 1005, 1018, 1047, 1077, 1078], 0x93d2700049603926a4c4960000000004e00125000, 3⟩,
    ⟨[642, 644, 647, 649, 725, 730, 731, 1005, 1018, 1077, 1078], 0x92c0700049603926a4c4960000000004e00125000, 3⟩,
    ⟨[725, 730, 731, 1047], 0x9412700001c0380700e01c0000000004e00006000, 3⟩,
    ⟨[652, 654, 657, 659, 725, 730, 731, 1005], 0x380700001c03928a5101c0000000004e0004f800, 3⟩,
    ⟨[652, 654, 657, 659, 725, 730, 731], 0x380700001c03929a5301c0000000004e00129000, 3⟩,
    ⟨[652, 654, 657, 659, 725, 730, 731, 861, 867, 870, 889, 1005, 1018, 1077, 1078], 0x92c070004a82712a8a04a8000000001360004f800, 3⟩,
    ⟨[72, 75, 112, 295, 360, 363, 400, 637, 651, 685, 686, 726, 760, 782, 785, 787, 1088], 0x18690d21a4000000000000000000000000095d2ba5700095800000, 22⟩,
    ⟨[77, 78, 365, 366, 728], 0x270180000000001c0380725901c9600700e01c0000000000009400000, 0⟩,
    ⟨[60, 74, 80, 84, 86, 96, 348, 362, 368, 372, 374, 384, 601, 642, 644, 647, 649, 725, 730, 731, 766, 772, 773, 1005, 1018, 1047, 1077, 1078], 0x9812f8004b82b52f25d4b8000000004b60012d000, 3⟩,
    ⟨[60, 74, 80, 84, 86, 96, 348, 362, 368, 372, 374, 384, 601, 642, 644, 647, 649, 725, 730, 731, 762, 772, 773, 1005, 1018, 1077, 1078], 0x970928004b84952f2614b8000000004b60012d000, 3⟩,
    ⟨[725, 730, 731, 766, 772, 773, 1047], 0x9892f80023c2b48f0ad23c0000000004e00093000, 3⟩,
    ⟨[727, 781], 0x18000d2000, 0⟩,
    ⟨[60, 84, 86, 348, 372, 374, 601, 652, 654, 657, 659, 725, 730, 731, 761, 772, 773, 1005], 0x4785400023c2a132a6423c0000000004e00131800, 3⟩,
    ⟨[726, 760, 782, 785, 787, 1088], 0x18690d21a400000000000000000000000002b4568ad00095800000, 11⟩,
    ⟨[652, 654, 657, 659, 725, 730, 731, 761, 772, 773], 0x4785400023c2a13426723c0000000004e00133000, 3⟩,
    ⟨[61, 62, 65, 66, 87, 89, 94, 349, 350, 353, 354, 375, 377, 382, 726], 0x180300626b00000000000000000000000009a93526a0009a400000, 0⟩,
    ⟨[64, 68, 90, 91, 352, 356, 378, 379, 602, 725, 730, 731], 0x380700001c0380700e01c0000000004e00136000, 3⟩,
    ⟨[54, 70, 109, 114, 342, 358, 397, 402, 602, 725, 730, 731, 864, 879, 903], 0x380700001c0380700e01c0000000004e00136800, 3⟩,
    ⟨[61, 62, 65, 66, 87, 89, 94, 349, 350, 353, 354, 375, 377, 382, 726, 855, 856, 859, 860, 881, 883, 888], 0x180300627000000000000000000000000009bd37a6f0009b800000, 0⟩,
    ⟨[64, 68, 90, 91, 352, 356, 378, 379, 602, 725, 730, 731, 858, 862, 884, 885], 0x380700001c0380700e01c0000000004e00138800, 3⟩,
    ⟨[727, 778, 857, 882], 0x1800139000, 0⟩,
    ⟨[725, 730, 731, 761, 772, 773, 861, 867, 870, 889], 0x478540004e629d398a74e60000000013600093000, 3⟩,
    ⟨[726, 760, 776, 780, 784, 787, 866, 869, 906, 910, 1088], 0x18690d21a400000000000000000000000009d13a27400068800000, 9⟩,
    ⟨[726, 760, 776, 780, 784, 787, 1088], 0x18690d21a400000000000000000000000002b4568ad00068800000, 11⟩,
    ⟨[726, 760, 774, 775, 777, 779, 784, 787, 863, 866, 869, 886, 906, 910, 1088], 0x186b8d71ae00000000000000000000000002bc578af0006e000000, 9⟩,
    ⟨[726, 760, 774, 775, 777, 779, 784, 787, 947, 961, 962, 964, 966, 971, 978, 986, 1088, 1092], 0x189d93b27600000000000000000000000006ccd99b30009d400000, 34⟩,
    ⟨[725, 730, 731, 766, 772, 773, 953, 959, 960], 0x6c4d98003626ccd89b33620000000004e000d8000, 3⟩,
    ⟨[725, 730, 731, 762, 772, 773, 949, 959, 960], 0x6c53b8003629dcd8a773620000000004e000d8000, 3⟩,
    ⟨[725, 730, 731, 761, 772, 773, 948, 959, 960], 0x6c4d90003626c8d89b23620000000004e000d8000, 3⟩,
    ⟨[604, 727, 778, 857, 882], 0x180013c000, 0⟩,
    ⟨[60, 74, 80, 84, 86, 93, 348, 362, 368, 372, 374, 381, 601, 652, 654, 657, 659, 725, 730, 731, 761, 772, 773, 861, 867, 870, 889, 1005, 1018, 1077, 1078], 0x970540004f629d3e0a54f6000000004f40013c800, 3⟩,
    ⟨[607, 726, 760, 776, 780, 784, 787, 866, 869, 906, 910, 1088], 0x18690d21a400000000000000000000000009f53ea7d00068800000, 9⟩,
    ⟨[725, 730, 731, 764, 765], 0x4785680023c2b48f0ad23c0000000004e00006000, 3⟩,
    ⟨[727, 778], 0x18000d2000, 0⟩,
    ⟨[340, 341, 348, 374, 401, 601, 725, 730, 731], 0x380700001c0393fa7f01c0000000004e0013f000, 3⟩,
    ⟨[327, 340, 341, 348, 374, 401, 601, 725, 729, 730, 731], 0x5000380700001c0393fa7f01c0000000004e0013f000, 3⟩,
    ⟨[651, 685, 686, 726, 821, 843, 846, 853, 1090], 0x182d85b0b60000000000000000000000000700e01c00004a800000, 16⟩,
    ⟨[642, 644, 647, 649, 725, 730, 731, 827, 833, 834, 1005, 1018, 1047, 1077, 1078], 0xa19428005040e1422835040000000004e00140800, 3⟩,
    ⟨[642, 644, 647, 649, 725, 730, 731, 823, 833, 834, 1005, 1018, 1077, 1078], 0xa081d8005040ed422875040000000004e00140800, 3⟩,
    ⟨[725, 730, 731, 827, 833, 834, 1047], 0xa21428000360e00d8380360000000004e0001e000, 3⟩,
    ⟨[652, 654, 657, 659, 725, 730, 731, 822, 833, 834, 1005], 0x6c0d000036069452890360000000004e0005c000, 3⟩,
    ⟨[652, 654, 657, 659, 725, 730, 731, 822, 833, 834], 0x6c0d00003606946a8c0360000000004e00145800, 3⟩,
    ⟨[652, 654, 657, 659, 725, 730, 731, 822, 833, 834, 861, 867, 870, 889, 1005, 1018, 1077, 1078], 0xa080d00051c2cd478b951c000000001360005c000, 3⟩,
    ⟨[72, 75, 112, 295, 360, 363, 400, 637, 651, 685, 686, 726, 760, 782, 785, 787, 821, 843, 846, 853, 1088, 1090], 0x18720e41c80000000000000000000000000a4548a91000a4000000, 26⟩,
    ⟨[60, 74, 80, 84, 86, 96, 348, 362, 368, 372, 374, 384, 601, 642, 644, 647, 649, 725, 730, 731, 766, 772, 773, 827, 833, 834, 1005, 1018, 1047, 1077, 1078], 0xa5d4b0005263194aa94526000000004b600149000, 3⟩,
    ⟨[60, 74, 80, 84, 86, 96, 348, 362, 368, 372, 374, 384, 601, 642, 644, 647, 649, 725, 730, 731, 762, 772, 773, 823, 833, 834, 1005, 1018, 1077, 1078], 0xa4c9f8005264fd4aa98526000000004b600149000, 3⟩,
    ⟨[725, 730, 731, 766, 772, 773, 827, 833, 834, 1047], 0xa654b0002703189c0c62700000000004e000a0000, 3⟩,
    ⟨[727, 781, 842], 0x18000e4000, 0⟩,
    ⟨[60, 84, 86, 348, 372, 374, 601, 652, 654, 657, 659, 725, 730, 731, 761, 772, 773, 822, 833, 834, 1005], 0x4e0608002703054e29b2700000000004e0014d000, 3⟩,
    ⟨[726, 760, 782, 785, 787, 821, 843, 846, 853, 1088, 1090], 0x18720e41c80000000000000000000000000318630c6000a4000000, 14⟩,
    ⟨[652, 654, 657, 659, 725, 730, 731, 761, 772, 773, 822, 833, 834], 0x4e0608002703054fa9e2700000000004e0014e800, 3⟩,
    ⟨[727, 778, 839, 857, 882], 0x1800150000, 0⟩,
    ⟨[725, 730, 731, 761, 772, 773, 822, 833, 834, 861, 867, 870, 889], 0x4e060800542301508c054200000000136000a0000, 3⟩,
    ⟨[726, 760, 776, 780, 784, 787, 821, 837, 841, 845, 853, 866, 869, 906, 910, 1088, 1090], 0x18720e41c80000000000000000000000000a89512a200071800000, 12⟩,
    ⟨[726, 760, 776, 780, 784, 787, 821, 837, 841, 845, 853, 1088, 1090], 0x18720e41c80000000000000000000000000318630c600071800000, 14⟩,
    ⟨[726, 760, 774, 775, 777, 779, 784, 787, 821, 835, 836, 838, 840, 845, 853, 863, 866, 869, 886, 906, 910, 1088, 1090], 0x18734e69cd0000000000000000000000000320640c800075c00000, 12⟩,
    ⟨[726, 760, 774, 775, 777, 779, 784, 787, 821, 835, 836, 838, 840, 845, 853, 947, 961, 962, 964, 966, 971, 978, 986, 1088, 1090, 1092], 0x18a91522a40000000000000000000000000748e91d2000a8c00000, 35⟩,
    ⟨[725, 730, 731, 766, 772, 773, 827, 833, 834, 953, 959, 960], 0x740e90003a0748e81d23a00000000004e000e7800, 3⟩,
    ⟨[725, 730, 731, 762, 772, 773, 823, 833, 834, 949, 959, 960], 0x741528003a0a94e82a53a00000000004e000e7800, 3⟩,
    ⟨[725, 730, 731, 761, 772, 773, 822, 833, 834, 948, 959, 960], 0x740e88003a0744e81d13a00000000004e000e7800, 3⟩,
    ⟨[604, 727, 778, 839, 857, 882], 0x1800153000, 0⟩,
    ⟨[60, 74, 80, 84, 86, 93, 348, 362, 368, 372, 374, 381, 601, 652, 654, 657, 659, 725, 730, 731, 761, 772, 773, 822, 833, 834, 861, 867, 870, 889, 1005, 1018, 1077, 1078], 0xa4c60800550301548be550000000004f400153800, 3⟩,
    ⟨[607, 726, 760, 776, 780, 784, 787, 821, 837, 841, 845, 853, 866, 869, 906, 910, 1088, 1090], 0x18720e41c80000000000000000000000000aa9552aa00071800000, 12⟩,
    ⟨[725, 730, 731, 764, 765, 825, 826], 0x4e0630002703189c0c62700000000004e00006000, 3⟩,
    ⟨[727, 778, 839], 0x18000e4000, 0⟩,
    ⟨[182, 185, 222, 297, 470, 473, 510, 596, 639, 726], 0x180300600c0000000000000000000000000774ee9dd00009400000, 29⟩,
    ⟨[237, 238, 241, 242, 263, 265, 270, 525, 526, 529, 530, 551, 553, 558, 726], 0x18030062ad0000000000000000000000000ab1562ac000aac00000, 0⟩,
    ⟨[187, 188, 231, 232, 475, 476, 519, 520, 728], 0x270180000000001c038072b1560abd572ae55c0000000000009400000, 0⟩,
    ⟨[170, 184, 190, 194, 196, 206, 458, 472, 478, 482, 484, 494, 619, 725, 730, 731], 0x380700001c038688d101c0000000056600159000, 3⟩,
    ⟨[170, 184, 190, 194, 196, 206, 240, 244, 266, 267, 458, 472, 478, 482, 484, 494, 528, 532, 554, 555, 619, 629, 725, 730, 731], 0x380700001c038688d101c000000005660015a000, 3⟩,
    ⟨[170, 194, 196, 458, 482, 484, 516, 518, 599, 619, 725, 730, 731], 0x380700001c038688d101c0000000056c0015a800, 3⟩,
    ⟨[622, 727], 0x180015b800, 0⟩,
    ⟨[170, 184, 190, 194, 196, 203, 458, 472, 478, 482, 484, 491, 619, 725, 730, 731], 0x380700001c038688d101c0000000056600159000, 3⟩,
    ⟨[625, 726], 0x180300600c0000000000000000000000000ae15c2b800009400000, 0⟩,
    ⟨[613, 727], 0x180015c800, 0⟩,
    ⟨[115, 129, 135, 139, 141, 166, 403, 417, 423, 427, 429, 454, 610, 725, 730, 731], 0x380700001c0386a0d401c000000005760015d000, 3⟩,
    ⟨[616, 726], 0x180300600c0000000000000000000000000af15e2bc00009400000, 0⟩,
    ⟨[132, 133, 420, 421, 728], 0x270180000000001c038071e601caf40700e01c0000000000009400000, 0⟩,
    ⟨[115, 129, 135, 139, 141, 151, 403, 417, 423, 427, 429, 439, 610, 725, 730, 731], 0x380700001c0386a0d401c000000005760015d000, 3⟩,
    ⟨[115, 139, 141, 403, 427, 429, 610, 725, 730, 731], 0x380700001c0386a0d401c0000000004e00069800, 3⟩,
    ⟨[115, 129, 135, 139, 141, 148, 403, 417, 423, 427, 429, 436, 610, 725, 730, 731], 0x380700001c0386a0d401c000000005760015d000, 3⟩,
    ⟨[727, 812], 0x18000a9800, 0⟩,
    ⟨[134, 422, 725, 729, 730, 731, 873], 0x57c0380700001c0380700e01c0000000004e00006000, 3⟩,
    ⟨[115, 139, 141, 403, 427, 429, 610, 725, 730, 731, 854, 878, 880], 0x380700001c039602c001c0000000004e0015f800, 3⟩,
    ⟨[116, 117, 120, 121, 142, 144, 149, 167, 296, 404, 405, 408, 409, 430, 432, 437, 455, 638, 643, 645, 648, 726, 789, 803, 804, 806, 808, 813, 820, 855, 856, 859, 860, 881, 883, 888, 906, 910, 1008, 1010, 1012, 1015, 1089], 0x183606c0d700000000000000000000000003586b0d600035400000, 36⟩,
    ⟨[136, 137, 424, 425, 728, 875, 876], 0x27018000000003d47a9611ea3d4b04f51ea3d40000000000009400000, 0⟩,
    ⟨[725, 730, 731, 795, 801, 802, 1079], 0xb11618001061e4418791060000000004e00041000, 3⟩,
    ⟨[119, 123, 145, 146, 407, 411, 433, 434, 611, 650, 725, 730, 731, 795, 801, 802, 858, 862, 884, 885, 1006, 1013, 1079], 0xb11618001061e4418791060000000004e0006f000, 3⟩,
    ⟨[725, 730, 731, 790, 801, 802, 1020, 1029, 1031, 1032, 1048], 0xb196380058cb1d632c758c0000000004e00162800, 37⟩,
    ⟨[725, 730, 731, 795, 801, 802, 1025, 1030, 1031, 1032, 1049, 1079], 0xb296480058cb21632c858c0000000004e00162800, 37⟩,
    ⟨[725, 730, 731, 795, 801, 802, 1025, 1030, 1031, 1032, 1049], 0xb196400058cb21632c858c0000000004e00162800, 37⟩,
    ⟨[116, 117, 120, 121, 142, 144, 149, 404, 405, 408, 409, 430, 432, 437, 653, 655, 660, 726, 789, 803, 804, 806, 808, 813, 820, 855, 856, 859, 860, 881, 883, 888, 1008, 1010, 1012, 1015, 1089], 0x183606c0d700000000000000000000000003586b0d6000b2c00000, 4⟩,
    ⟨[119, 123, 145, 146, 407, 411, 433, 434, 611, 658, 725, 730, 731, 791, 801, 802, 858, 862, 884, 885, 1006, 1013], 0x20c3f8001061fc4187f1060000000004e0006f000, 3⟩,
    ⟨[119, 123, 145, 146, 407, 411, 433, 434, 611, 658, 725, 730, 731, 795, 801, 802, 858, 862, 884, 885, 1006, 1013], 0x20c3c8001061e4418791060000000004e0006f000, 3⟩,
    ⟨[653, 655, 660, 726, 789, 803, 804, 806, 808, 813, 820, 1089], 0x183606c0d80000000000000000000000000644c899100081800000, 4⟩,
    ⟨[658, 725, 730, 731, 791, 801, 802], 0x20c3f8001061fc4187f1060000000004e000c9000, 3⟩,
    ⟨[658, 725, 730, 731, 795, 801, 802], 0x20c3c8001061e4418791060000000004e000c9000, 3⟩,
    ⟨[126, 127, 130, 165, 167, 296, 414, 415, 418, 453, 455, 612, 615, 638], 0x2ce0000000000000000000000000b3566acd000b3000000, 30⟩,
    ⟨[727, 807, 965], 0x1800167800, 0⟩,
    ⟨[726, 789, 805, 809, 813, 820, 947, 963, 967, 971, 978, 986, 1089, 1092], 0x18b3d67acf0000000000000000000000000564ac959000b4000000, 31⟩,
    ⟨[725, 730, 731, 792, 801, 802, 950, 959, 960], 0xb44070005a20396880e5a20000000004e000ab000, 3⟩,
    ⟨[614, 726, 789, 811, 814, 820, 1089], 0x1854ca995300000000000000000000000007fcff9ff0007a000000, 4⟩,
    ⟨[116, 117, 120, 121, 142, 144, 149, 167, 296, 404, 405, 408, 409, 430, 432, 437, 455, 638, 653, 655, 660, 726, 789, 803, 804, 806, 808, 813, 820, 855, 856, 859, 860, 881, 883, 888, 906, 910, 1008, 1010, 1012, 1015, 1089], 0x183606c0d700000000000000000000000003586b0d6000b2c00000, 36⟩,
    ⟨[119, 123, 145, 146, 407, 411, 433, 434, 611, 658, 725, 730, 731, 795, 801, 802, 858, 862, 884, 885, 1006, 1013, 1079], 0xb11618001061e4418791060000000004e0006f000, 3⟩,
    ⟨[417, 423, 617, 725, 730, 731, 790, 801, 802], 0x20c2480010612441849106000000005a400041000, 3⟩,
    ⟨[726, 789, 811, 814, 820, 911, 933, 936, 942, 946, 1089, 1091], 0x18801002000000000000000000000000000388710e2000b4c00000, 18⟩,
    ⟨[727, 810, 932], 0x1800100000, 0⟩,
    ⟨[725, 730, 731, 793, 794, 915, 916], 0x380710001c0388700e21c00000000004e00006000, 3⟩,
    ⟨[727, 807, 929, 965], 0x180016a000, 0⟩,
    ⟨[726, 789, 805, 809, 813, 820, 911, 927, 931, 935, 942, 946, 947, 963, 967, 971, 978, 986, 1089, 1091, 1092], 0x18b516a2d4000000000000000000000000058cb1963000b5400000, 32⟩,
    ⟨[725, 730, 731, 792, 801, 802, 914, 923, 924, 950, 959, 960], 0xb58070005ac0396b00e5ac0000000004e000b0000, 3⟩,
    ⟨[656, 727, 807], 0x1800122800, 0⟩,
    ⟨[641, 725, 730, 731, 790, 801, 802, 1011, 1016, 1017, 1045, 1046], 0x540248005aeb616bad85ae0000000004e00041000, 3⟩,
    ⟨[651, 685, 686, 726, 789, 805, 809, 813, 820, 1009, 1089], 0x1854ca99530000000000000000000000000b656cad900054400000, 16⟩,
    ⟨[116, 117, 120, 121, 142, 144, 149, 167, 296, 404, 405, 408, 409, 430, 432, 437, 455, 638, 643, 645, 648, 726, 789, 803, 804, 806, 808, 813, 820, 855, 856, 859, 860, 881, 883, 888, 906, 910, 1089], 0x183606c0e60000000000000000000000000b696d2da00035400000, 36⟩,
    ⟨[119, 123, 145, 146, 407, 411, 433, 434, 611, 650, 725, 730, 731, 795, 801, 802, 858, 862, 884, 885], 0x20c3c8001061e4418791060000000004e00073800, 3⟩,
    ⟨[116, 117, 120, 121, 142, 144, 149, 167, 296, 404, 405, 408, 409, 430, 432, 437, 455, 638, 643, 645, 648, 651, 685, 686, 726, 789, 803, 804, 806, 808, 813, 820, 855, 856, 859, 860, 881, 883, 888, 906, 910, 1007, 1014, 1089], 0x183606c0e60000000000000000000000000b6d6dadb00035400000, 15⟩,
    ⟨[116, 117, 120, 121, 142, 144, 149, 404, 405, 408, 409, 430, 432, 437, 653, 655, 660, 726, 789, 803, 804, 806, 808, 813, 820, 855, 856, 859, 860, 881, 883, 888, 1089], 0x183606c0e60000000000000000000000000b696d2da000b2c00000, 4⟩,
    ⟨[119, 123, 145, 146, 407, 411, 433, 434, 611, 658, 725, 730, 731, 791, 801, 802, 858, 862, 884, 885], 0x20c3f8001061fc4187f1060000000004e00073800, 3⟩,
    ⟨[119, 123, 145, 146, 407, 411, 433, 434, 611, 658, 725, 730, 731, 795, 801, 802, 858, 862, 884, 885], 0x20c3c8001061e4418791060000000004e00073800, 3⟩,
    ⟨[116, 117, 120, 121, 142, 144, 149, 167, 296, 404, 405, 408, 409, 430, 432, 437, 455, 638, 653, 655, 660, 726, 789, 803, 804, 806, 808, 813, 820, 855, 856, 859, 860, 881, 883, 888, 906, 910, 1089], 0x183606c0e60000000000000000000000000b696d2da000b2c00000, 36⟩,
    ⟨[727, 757, 812], 0x18000bb000, 0⟩,
    ⟨[63, 88, 351, 376, 656, 727, 778, 807], 0x180016e000, 0⟩,
    ⟨[67, 73, 76, 95, 355, 361, 364, 383, 641, 725, 730, 731, 761, 772, 773, 790, 801, 802, 1011, 1016, 1017, 1045, 1046], 0xb7cb90005bab796eade5ba0000000033c00110800, 3⟩,
    ⟨[72, 75, 112, 295, 360, 363, 400, 637, 651, 685, 686, 726, 760, 776, 780, 784, 787, 789, 805, 809, 813, 820, 1009, 1088, 1089], 0x18b89712e20000000000000000000000000b8570ae1000b8000000, 26⟩,
    ⟨[651, 685, 686, 726, 760, 776, 780, 784, 787, 789, 805, 809, 813, 820, 1088, 1089], 0x18b89712e200000000000000000000000005dcbb977000b8000000, 27⟩,
    ⟨[39, 52, 53, 60, 86, 113, 134, 327, 340, 341, 348, 374, 401, 422, 601, 725, 729, 730, 731, 873], 0x5c60380700001c038d39a701c0000000004e000d3000, 3⟩,
    ⟨[52, 53, 60, 86, 113, 115, 139, 141, 340, 341, 348, 374, 401, 403, 427, 429, 601, 610, 725, 730, 731, 854, 878, 880], 0x380700001c03972ae501c0000000004e00172000, 3⟩,
    ⟨[116, 117, 120, 121, 142, 144, 149, 167, 296, 404, 405, 408, 409, 430, 432, 437, 455, 638, 643, 645, 648, 726, 760, 774, 775, 777, 779, 784, 787, 789, 803, 804, 806, 808, 813, 820, 855, 856, 859, 860, 881, 883, 888, 906, 910, 1088, 1089], 0x188510a2e80000000000000000000000000b9d73ae7000b9800000, 38⟩,
    ⟨[725, 730, 731, 766, 772, 773, 795, 801, 802], 0x8610d80043086d0c21b4300000000004e00110800, 3⟩,
    ⟨[119, 123, 145, 146, 407, 411, 433, 434, 611, 650, 725, 730, 731, 761, 772, 773, 790, 801, 802, 858, 862, 884, 885], 0x860b90004305c90c1724300000000004e00174800, 3⟩,
    ⟨[119, 123, 145, 146, 407, 411, 433, 434, 611, 650, 725, 730, 731, 766, 772, 773, 795, 801, 802, 858, 862, 884, 885], 0x8610d80043086d0c21b4300000000004e00174800, 3⟩,
    ⟨[725, 730, 731, 761, 772, 773, 790, 801, 802], 0x860b90004305c90c1724300000000004e00110800, 3⟩,
    ⟨[725, 730, 731, 761, 772, 773, 790, 801, 802, 948, 957, 959, 960, 976], 0xbad760005d6bb175aec5d60000000004e00175000, 17⟩,
    ⟨[725, 730, 731, 766, 772, 773, 795, 801, 802, 953, 958, 959, 960, 977], 0xbad768005d6bb575aed5d60000000004e00175000, 17⟩,
    ⟨[69, 72, 75, 92, 112, 116, 117, 120, 121, 142, 144, 149, 167, 295, 296, 357, 360, 363, 380, 400, 404, 405, 408, 409, 430, 432, 437, 455, 603, 606, 637, 638, 643, 645, 648, 651, 685, 686, 726, 760, 774, 775, 777, 779, 784, 787, 789, 803, 804, 806, 808, 813, 820, 855, 856, 859, 860, 881, 883, 888, 906, 910, 1007, 1014, 1088, 1089], 0x188510a2f00000000000000000000000000bbd77aef000bb800000, 39⟩,
    ⟨[119, 123, 145, 146, 407, 411, 433, 434, 611, 650, 725, 730, 731, 763, 772, 773, 792, 801, 802, 858, 862, 884, 885], 0xbc4070005e20397880e5e20000000004e00174800, 3⟩,
    ⟨[725, 730, 731, 763, 772, 773, 792, 801, 802], 0xbc4070005e20397880e5e20000000004e00110800, 3⟩,
    ⟨[726, 760, 774, 775, 777, 779, 784, 787, 789, 803, 804, 806, 808, 813, 820, 1088, 1089], 0x18bcd79af3000000000000000000000000086d0da1b000bc800000, 14⟩,
    ⟨[116, 117, 120, 121, 142, 144, 149, 404, 405, 408, 409, 430, 432, 437, 653, 655, 660, 726, 760, 774, 775, 777, 779, 784, 787, 789, 803, 804, 806, 808, 813, 820, 855, 856, 859, 860, 881, 883, 888, 1088, 1089], 0x188510a2e80000000000000000000000000b9d73ae7000bd000000, 14⟩,
    ⟨[119, 123, 145, 146, 407, 411, 433, 434, 611, 658, 725, 730, 731, 762, 772, 773, 791, 801, 802, 858, 862, 884, 885], 0x861100004308810c2204300000000004e00174800, 3⟩,
    ⟨[119, 123, 145, 146, 407, 411, 433, 434, 611, 658, 725, 730, 731, 766, 772, 773, 795, 801, 802, 858, 862, 884, 885], 0x8610d80043086d0c21b4300000000004e00174800, 3⟩,
    ⟨[653, 655, 660, 726, 760, 774, 775, 777, 779, 784, 787, 789, 803, 804, 806, 808, 813, 820, 1088, 1089], 0x188510a2140000000000000000000000000bd97b2f6000bd400000, 14⟩,
    ⟨[658, 725, 730, 731, 762, 772, 773, 791, 801, 802], 0x861100004308810c2204300000000004e0017b800, 3⟩,
    ⟨[658, 725, 730, 731, 766, 772, 773, 795, 801, 802], 0x8610d80043086d0c21b4300000000004e0017b800, 3⟩,
    ⟨[614, 726, 756, 759, 760, 787, 789, 811, 814, 820, 1088, 1089], 0x185d8bb17600000000000000000000000008a91522a00084000000, 14⟩,
    ⟨[116, 117, 120, 121, 142, 144, 149, 167, 296, 404, 405, 408, 409, 430, 432, 437, 455, 638, 653, 655, 660, 726, 760, 774, 775, 777, 779, 784, 787, 789, 803, 804, 806, 808, 813, 820, 855, 856, 859, 860, 881, 883, 888, 906, 910, 1088, 1089], 0x188510a2e80000000000000000000000000b9d73ae7000bd000000, 38⟩,
    ⟨[417, 423, 617, 725, 730, 731, 761, 772, 773, 790, 801, 802], 0x860b90004305c90c172430000000005a400110800, 3⟩,
    ⟨[727, 752, 807], 0x18000bb000, 0⟩,
    ⟨[651, 685, 686, 726, 789, 811, 814, 820, 866, 869, 906, 910, 1089], 0x1854ca995300000000000000000000000008bd17a2f0007a000000, 25⟩,
    ⟨[642, 644, 647, 649, 725, 730, 731, 795, 801, 802, 854, 868, 874, 878, 880, 890], 0x20c3c8001061e57d2f91060000000021e0017c000, 3⟩,
    ⟨[642, 644, 647, 649, 725, 730, 731, 791, 801, 802, 854, 868, 874, 878, 880, 890], 0x20c3f8001061fd7d2fb1060000000021e0017c000, 3⟩,
    ⟨[652, 654, 657, 659, 725, 730, 731, 790, 801, 802, 854, 878, 880], 0x20c248001061257f2fd1060000000004e0017e000, 3⟩,
    ⟨[652, 654, 657, 659, 725, 730, 731, 790, 801, 802, 854, 868, 874, 878, 880, 887], 0x20c248001061257f2fd1060000000021e0017f800, 3⟩,
    ⟨[642, 644, 647, 649, 658, 725, 730, 731, 791, 801, 802, 854, 868, 874, 878, 880, 890, 1006, 1013], 0x20c3f8001061fd7d2fb1060000000021e00180000, 3⟩,
    ⟨[642, 644, 647, 649, 658, 725, 730, 731, 795, 801, 802, 854, 868, 874, 878, 880, 890, 1006, 1013], 0x20c3c8001061e57d2f91060000000021e00180000, 3⟩,
    ⟨[115, 129, 135, 139, 141, 161, 403, 417, 423, 427, 429, 449, 610, 642, 644, 647, 649, 725, 730, 731, 795, 801, 802, 854, 868, 874, 878, 880, 890, 1005, 1018, 1047, 1077, 1078], 0x7c0f78003da1e4f70773da000000003d8000f5800, 3⟩,
    ⟨[115, 129, 135, 139, 141, 161, 403, 417, 423, 427, 429, 449, 610, 642, 644, 647, 649, 725, 730, 731, 791, 801, 802, 854, 868, 874, 878, 880, 890, 1005, 1018, 1077, 1078], 0x7b43f8003da1fcf70813da000000003d8000f5800, 3⟩,
    ⟨[115, 129, 135, 139, 141, 158, 403, 417, 423, 427, 429, 446, 610, 652, 654, 657, 659, 725, 730, 731, 790, 801, 802, 854, 868, 874, 878, 880, 887, 1005, 1018, 1077, 1078], 0x7b4248003da124ff1f33da000000003d8000fe800, 3⟩,
    ⟨[115, 129, 135, 139, 141, 158, 403, 417, 423, 427, 429, 446, 610, 725, 730, 731, 790, 801, 802, 854, 868, 874, 878, 880, 887, 1005, 1018, 1077, 1078], 0x7b4248003da12581b023da000000003d800180800, 3⟩,
    ⟨[726, 789, 811, 814, 820, 866, 869, 906, 910, 1089], 0x1854ca995300000000000000000000000008f11e23c0007a000000, 6⟩,
    ⟨[725, 730, 731, 795, 801, 802, 854, 868, 874, 878, 880, 890], 0x20c3c8001061e4801011060000000021e00182000, 3⟩,
    ⟨[658, 725, 730, 731, 791, 801, 802, 854, 868, 874, 878, 880, 890, 1006, 1013], 0x20c3f8001061fc800ff1060000000021e00182800, 3⟩,
    ⟨[658, 725, 730, 731, 795, 801, 802, 854, 868, 874, 878, 880, 890, 1006, 1013], 0x20c3c8001061e4801011060000000021e00182800, 3⟩,
    ⟨[725, 730, 731, 791, 801, 802, 854, 868, 874, 878, 880, 890], 0x20c3f8001061fc800ff1060000000021e00182000, 3⟩,
    ⟨[725, 730, 731, 790, 801, 802, 854, 878, 880], 0x20c24800106124803061060000000004e00081000, 3⟩,
    ⟨[725, 730, 731, 790, 801, 802, 854, 868, 874, 878, 880, 887], 0x20c24800106124803061060000000021e00182000, 3⟩,
    ⟨[587, 726, 756, 759, 760, 787, 789, 811, 814, 820, 866, 869, 906, 910, 1088, 1089], 0x185d8bb176000000000000000000000000090d21a4300084000000, 12⟩,
    ⟨[725, 730, 731, 766, 772, 773, 795, 801, 802, 854, 868, 874, 878, 880, 890, 975], 0x8750e00043086d84b084300000000021e00183800, 3⟩,
    ⟨[64, 68, 90, 91, 352, 356, 378, 379, 602, 658, 725, 730, 731, 762, 772, 773, 791, 801, 802, 854, 868, 874, 878, 880, 890, 1006, 1013], 0x8611000043088184b0b4300000000021e00185000, 3⟩,
    ⟨[64, 68, 90, 91, 352, 356, 378, 379, 602, 658, 725, 730, 731, 766, 772, 773, 795, 801, 802, 854, 868, 874, 878, 880, 890, 975, 1006, 1013], 0x8750e00043086d84b084300000000021e00185000, 3⟩,
    ⟨[725, 730, 731, 762, 772, 773, 791, 801, 802, 854, 868, 874, 878, 880, 890], 0x8611000043088184b0b4300000000021e00183800, 3⟩,
    ⟨[319, 324, 590, 725, 730, 731, 761, 772, 773, 790, 801, 802, 854, 878, 880], 0x860b90004305c984b0d4300000000025000186000, 3⟩,
    ⟨[725, 730, 731, 761, 772, 773, 790, 801, 802, 854, 868, 874, 878, 880, 887], 0x860b90004305c984b0d4300000000021e00183800, 3⟩,
    ⟨[651, 685, 686, 726, 789, 811, 814, 820, 1089], 0x1854ca99530000000000000000000000000550aa1540007a000000, 16⟩,
    ⟨[642, 644, 647, 649, 725, 730, 731, 795, 801, 802], 0x20c3c8001061e58830f1060000000004e00187000, 3⟩,
    ⟨[642, 644, 647, 649, 725, 730, 731, 791, 801, 802], 0x20c3f8001061fd883111060000000004e00187000, 3⟩,
    ⟨[726, 865, 866, 869, 904, 906, 910], 0x180300600c0000000000000000000000000c498931200009400000, 5⟩,
    ⟨[864, 879, 903], 0x189800, 0⟩,
    ⟨[643, 645, 648, 726, 1008, 1010, 1012, 1015], 0x1844c89912000000000000000000000000044488911000c5000000, 0⟩,
    ⟨[725, 730, 731, 1079], 0xc598a80001c0380700e01c0000000004e00006000, 3⟩,
    ⟨[650, 725, 730, 731, 1006, 1013], 0x380700001c0380700e01c0000000004e0018b800, 3⟩,
    ⟨[650, 725, 730, 731, 1006, 1013, 1079], 0xc598a80001c0380700e01c0000000004e0018b800, 3⟩,
    ⟨[725, 730, 731, 1020, 1029, 1031, 1032, 1048], 0xc658d000632c698cb1a6320000000004e0018c000, 37⟩,
    ⟨[725, 730, 731, 1025, 1030, 1031, 1032, 1049, 1079], 0xc758e000632c6d8cb1b6320000000004e0018c000, 37⟩,
    ⟨[725, 730, 731, 1025, 1030, 1031, 1032, 1049], 0xc658d800632c6d8cb1b6320000000004e0018c000, 37⟩,
    ⟨[658, 725, 730, 731, 1006, 1013], 0x380700001c0380700e01c0000000004e0018b800, 3⟩,
    ⟨[653, 655, 660, 726], 0x1844c899130000000000000000000000000c798f31e00044000000, 0⟩,
    ⟨[658, 725, 730, 731], 0x380700001c0380700e01c0000000004e00089800, 3⟩,
    ⟨[725, 730, 731, 854, 868, 874, 878, 880, 890, 1079], 0xc598a80001c0381803001c0000000021e00087000, 3⟩,
    ⟨[658, 725, 730, 731, 854, 868, 874, 878, 880, 890, 1006, 1013, 1079], 0xc598a80001c0381803001c0000000021e0008a000, 3⟩,
    ⟨[727, 783], 0x18000d2000, 0⟩,
    ⟨[60, 84, 86, 348, 372, 374, 601, 652, 654, 657, 659, 725, 730, 731, 761, 772, 773], 0x4785400023c2a190b2023c0000000004e0018f800, 3⟩,
    ⟨[79, 367, 725, 729, 730, 731], 0x6440380700001c0380700e01c0000000004e00006000, 3⟩,
    ⟨[60, 84, 86, 348, 372, 374, 601, 725, 730, 731], 0x380700001c038d39a701c0000000004e000d3000, 3⟩,
    ⟨[61, 62, 65, 66, 87, 89, 94, 112, 295, 349, 350, 353, 354, 375, 377, 382, 400, 637, 643, 645, 648, 726, 760, 774, 775, 777, 779, 784, 787, 1008, 1010, 1012, 1015, 1088], 0x184648c918000000000000000000000000045c8b917000c8c00000, 40⟩,
    ⟨[81, 82, 369, 370, 728], 0x27018000000004b296592a594b2c912ca594b20000000000009400000, 0⟩,
    ⟨[725, 730, 731, 766, 772, 773, 1079], 0xc9d9300023c2b48f0ad23c0000000004e00093000, 3⟩,
    ⟨[64, 68, 90, 91, 352, 356, 378, 379, 602, 650, 725, 730, 731, 761, 772, 773, 1006, 1013], 0x4785400023c2a08f0a823c0000000004e00194000, 3⟩,
    ⟨[64, 68, 90, 91, 352, 356, 378, 379, 602, 650, 725, 730, 731, 766, 772, 773, 1006, 1013, 1079], 0xc9d9300023c2b48f0ad23c0000000004e00194000, 3⟩,
    ⟨[725, 730, 731, 761, 772, 773, 1020, 1029, 1031, 1032, 1048], 0xca995800654cad9532b6540000000004e00194800, 37⟩,
    ⟨[725, 730, 731, 766, 772, 773, 1025, 1030, 1031, 1032, 1049, 1079], 0xcb996800654cb19532c6540000000004e00194800, 37⟩,
    ⟨[64, 68, 90, 91, 352, 356, 378, 379, 602, 650, 725, 730, 731, 763, 772, 773, 1006, 1013], 0x6dc0700036e038db80e36e0000000004e00194000, 3⟩,
    ⟨[725, 730, 731, 766, 772, 773, 1025, 1030, 1031, 1032, 1049], 0xca996000654cb19532c6540000000004e00194800, 37⟩,
    ⟨[61, 62, 65, 66, 87, 89, 94, 349, 350, 353, 354, 375, 377, 382, 653, 655, 660, 726, 760, 774, 775, 777, 779, 784, 787, 1008, 1010, 1012, 1015, 1088], 0x184648c918000000000000000000000000045c8b91700045800000, 11⟩,
    ⟨[64, 68, 90, 91, 352, 356, 378, 379, 602, 658, 725, 730, 731, 762, 772, 773, 1006, 1013], 0x4789280023c4948f12523c0000000004e00194000, 3⟩,
    ⟨[64, 68, 90, 91, 352, 356, 378, 379, 602, 658, 725, 730, 731, 766, 772, 773, 1006, 1013], 0x4785680023c2b48f0ad23c0000000004e00194000, 3⟩,
    ⟨[653, 655, 660, 726, 760, 774, 775, 777, 779, 784, 787, 1088], 0x184648c9190000000000000000000000000cc198330000cbc00000, 11⟩,
    ⟨[658, 725, 730, 731, 762, 772, 773], 0x4789280023c4948f12523c0000000004e00198800, 3⟩,
    ⟨[658, 725, 730, 731, 766, 772, 773], 0x4785680023c2b48f0ad23c0000000004e00198800, 3⟩,
    ⟨[63, 88, 351, 376, 727], 0x1800135800, 0⟩,
    ⟨[67, 73, 76, 95, 355, 361, 364, 383, 725, 730, 731], 0x3807000664cc9993326640000000033c00006000, 3⟩,
    ⟨[72, 75, 112, 295, 360, 363, 400, 637, 726], 0x180300600c00000000000000000000000009652ca5900009400000, 41⟩,
    ⟨[69, 72, 75, 92, 112, 295, 357, 360, 363, 380, 400, 603, 606, 637, 726], 0x18030063350000000000000000000000000cd19a334000ccc00000, 41⟩,
    ⟨[71, 72, 75, 110, 112, 295, 359, 360, 363, 398, 400, 603, 606, 637, 726, 865, 866, 869, 904, 906, 910], 0x18030063350000000000000000000000000cd99b336000ccc00000, 42⟩,
    ⟨[63, 88, 351, 376, 727, 857, 882], 0x1800138000, 0⟩,
    ⟨[67, 73, 76, 95, 355, 361, 364, 383, 725, 730, 731, 861, 867, 870, 889], 0x3807000670ce19c3386700000000066e00006000, 3⟩,
    ⟨[72, 75, 112, 295, 360, 363, 400, 637, 726, 866, 869, 906, 910], 0x180300600c0000000000000000000000000ce59cb3900009400000, 42⟩,
    ⟨[69, 72, 75, 92, 112, 295, 357, 360, 363, 380, 400, 603, 606, 637, 726, 863, 866, 869, 886, 906, 910], 0x18030063350000000000000000000000000ce99d33a000ccc00000, 42⟩,
    ⟨[726, 760, 782, 785, 787, 866, 869, 906, 910, 1088], 0x18690d21a400000000000000000000000009d13a27400095800000, 9⟩,
    ⟨[725, 730, 731, 766, 772, 773, 854, 868, 874, 878, 880, 890], 0x4785680023c2b49011f23c0000000021e0008e800, 3⟩,
    ⟨[725, 730, 731, 761, 772, 773, 854, 878, 880], 0x4785400023c2a09012923c0000000004e00093800, 3⟩,
    ⟨[727, 778, 965], 0x180019d800, 0⟩,
    ⟨[726, 760, 776, 780, 784, 787, 947, 963, 967, 971, 978, 986, 1088, 1092], 0x18ced9db3b00000000000000000000000006ccd99b3000cf000000, 34⟩,
    ⟨[725, 730, 731, 763, 772, 773, 950, 959, 960], 0xcf40700067a0399e80e67a0000000004e000d8000, 3⟩,
    ⟨[605, 726, 760, 782, 785, 787, 866, 869, 906, 910, 1088], 0x18690d21a400000000000000000000000009f53ea7d00095800000, 9⟩,
    ⟨[61, 62, 65, 66, 87, 89, 94, 112, 295, 349, 350, 353, 354, 375, 377, 382, 400, 637, 653, 655, 660, 726, 760, 774, 775, 777, 779, 784, 787, 1008, 1010, 1012, 1015, 1088], 0x184648c918000000000000000000000000045c8b91700045800000, 40⟩,
    ⟨[81, 82, 369, 370, 728, 871, 872], 0x27018000000004b296592b394b2cf92ca594b20000000000009400000, 0⟩,
    ⟨[725, 730, 731, 766, 772, 773, 854, 868, 874, 878, 880, 890, 1079], 0xc9d9300023c2b49011f23c0000000021e0008e800, 3⟩,
    ⟨[64, 68, 90, 91, 352, 356, 378, 379, 602, 658, 725, 730, 731, 766, 772, 773, 854, 868, 874, 878, 880, 890, 1006, 1013, 1079], 0xc9d9300023c2b49011f23c0000000021e00091800, 3⟩,
    ⟨[362, 368, 608, 725, 730, 731, 761, 772, 773, 854, 878, 880], 0x4785400023c2a09012923c0000000067e00093800, 3⟩,
    ⟨[349, 350, 353, 354, 375, 377, 382, 726], 0x18030063420000000000000000000000000d05a0b41000d0000000, 0⟩,
    ⟨[352, 356, 378, 379, 602, 725, 730, 731], 0x380700001c0380700e01c0000000004e001a1800, 3⟩,
    ⟨[342, 358, 397, 402, 602, 725, 730, 731], 0x380700001c0380700e01c0000000004e001a2000, 3⟩,
    ⟨[643, 645, 648, 726, 821, 835, 836, 838, 840, 845, 853, 1008, 1010, 1012, 1015, 1090], 0x184c09812f00000000000000000000000004b89712e000d1400000, 4⟩,
    ⟨[725, 730, 731, 827, 833, 834, 1079], 0xd1da30000360e00d8380360000000004e0001e000, 3⟩,
    ⟨[650, 725, 730, 731, 822, 833, 834, 1006, 1013], 0x6c0d0000360680d81a0360000000004e001a4000, 3⟩,
    ⟨[650, 725, 730, 731, 827, 833, 834, 1006, 1013, 1079], 0xd1da30000360e00d8380360000000004e001a4000, 3⟩,
    ⟨[725, 730, 731, 822, 833, 834, 1020, 1029, 1031, 1032, 1048], 0xd29a5800694d2da534b6940000000004e001a4800, 37⟩,
    ⟨[725, 730, 731, 827, 833, 834, 1025, 1030, 1031, 1032, 1049, 1079], 0xd39a6800694d31a534c6940000000004e001a4800, 37⟩,
    ⟨[650, 725, 730, 731, 824, 833, 834, 1006, 1013], 0x194070000ca0383280e0ca0000000004e001a4000, 3⟩,
    ⟨[725, 730, 731, 827, 833, 834, 1025, 1030, 1031, 1032, 1049], 0xd29a6000694d31a534c6940000000004e001a4800, 37⟩,
    ⟨[658, 725, 730, 731, 823, 833, 834, 1006, 1013], 0x6c1d8000360ec0d83b0360000000004e001a4000, 3⟩,
    ⟨[658, 725, 730, 731, 827, 833, 834, 1006, 1013], 0x6c1c0000360e00d8380360000000004e001a4000, 3⟩,
    ⟨[653, 655, 660, 726, 821, 835, 836, 838, 840, 845, 853, 1090], 0x184c0981300000000000000000000000000d3da7b4f0004b400000, 4⟩,
    ⟨[658, 725, 730, 731, 823, 833, 834], 0x6c1d8000360ec0d83b0360000000004e001a8000, 3⟩,
    ⟨[658, 725, 730, 731, 827, 833, 834], 0x6c1c0000360e00d8380360000000004e001a8000, 3⟩,
    ⟨[725, 730, 731, 827, 833, 834, 854, 868, 874, 878, 880, 890, 1079], 0xd1da30000360e01b8360360000000021e00095800, 3⟩,
    ⟨[658, 725, 730, 731, 827, 833, 834, 854, 868, 874, 878, 880, 890, 1006, 1013, 1079], 0xd1da30000360e01b8360360000000021e00098800, 3⟩,
    ⟨[727, 783, 844], 0x18000e4000, 0⟩,
    ⟨[60, 84, 86, 348, 372, 374, 601, 652, 654, 657, 659, 725, 730, 731, 761, 772, 773, 822, 833, 834], 0x4e060800270305a9b522700000000004e001a8800, 3⟩,
    ⟨[61, 62, 65, 66, 87, 89, 94, 112, 295, 349, 350, 353, 354, 375, 377, 382, 400, 637, 643, 645, 648, 726, 760, 774, 775, 777, 779, 784, 787, 821, 835, 836, 838, 840, 845, 853, 1008, 1010, 1012, 1015, 1088, 1090], 0x184d89b13500000000000000000000000004d09a134000d5000000, 43⟩,
    ⟨[725, 730, 731, 766, 772, 773, 827, 833, 834, 1079], 0xd59aa8002703189c0c62700000000004e000a0000, 3⟩,
    ⟨[64, 68, 90, 91, 352, 356, 378, 379, 602, 650, 725, 730, 731, 761, 772, 773, 822, 833, 834, 1006, 1013], 0x4e0608002703049c0c12700000000004e001ab800, 3⟩,
    ⟨[64, 68, 90, 91, 352, 356, 378, 379, 602, 650, 725, 730, 731, 766, 772, 773, 827, 833, 834, 1006, 1013, 1079], 0xd59aa8002703189c0c62700000000004e001ab800, 3⟩,
    ⟨[725, 730, 731, 761, 772, 773, 822, 833, 834, 1020, 1029, 1031, 1032, 1048], 0xd65ad0006b2d69acb5a6b20000000004e001ac000, 37⟩,
    ⟨[725, 730, 731, 766, 772, 773, 827, 833, 834, 1025, 1030, 1031, 1032, 1049, 1079], 0xd75ae0006b2d6dacb5b6b20000000004e001ac000, 37⟩,
    ⟨[64, 68, 90, 91, 352, 356, 378, 379, 602, 650, 725, 730, 731, 763, 772, 773, 824, 833, 834, 1006, 1013], 0x758070003ac038eb00e3ac0000000004e001ab800, 3⟩,
    ⟨[725, 730, 731, 766, 772, 773, 827, 833, 834, 1025, 1030, 1031, 1032, 1049], 0xd65ad8006b2d6dacb5b6b20000000004e001ac000, 37⟩,
    ⟨[61, 62, 65, 66, 87, 89, 94, 349, 350, 353, 354, 375, 377, 382, 653, 655, 660, 726, 760, 774, 775, 777, 779, 784, 787, 821, 835, 836, 838, 840, 845, 853, 1008, 1010, 1012, 1015, 1088, 1090], 0x184d89b13500000000000000000000000004d09a1340004cc00000, 14⟩,
    ⟨[64, 68, 90, 91, 352, 356, 378, 379, 602, 658, 725, 730, 731, 762, 772, 773, 823, 833, 834, 1006, 1013], 0x4e09f8002704fc9c13f2700000000004e001ab800, 3⟩,
    ⟨[64, 68, 90, 91, 352, 356, 378, 379, 602, 658, 725, 730, 731, 766, 772, 773, 827, 833, 834, 1006, 1013], 0x4e0630002703189c0c62700000000004e001ab800, 3⟩,
    ⟨[653, 655, 660, 726, 760, 774, 775, 777, 779, 784, 787, 821, 835, 836, 838, 840, 845, 853, 1088, 1090], 0x184d89b1360000000000000000000000000d7dafb5f000d7800000, 14⟩,
    ⟨[658, 725, 730, 731, 762, 772, 773, 823, 833, 834], 0x4e09f8002704fc9c13f2700000000004e001b0000, 3⟩,
    ⟨[658, 725, 730, 731, 766, 772, 773, 827, 833, 834], 0x4e0630002703189c0c62700000000004e001b0000, 3⟩,
    ⟨[726, 760, 782, 785, 787, 821, 843, 846, 853, 866, 869, 906, 910, 1088, 1090], 0x18720e41c80000000000000000000000000a89512a2000a4000000, 12⟩,
    ⟨[725, 730, 731, 766, 772, 773, 827, 833, 834, 854, 868, 874, 878, 880, 890], 0x4e0630002703189d1392700000000021e0009b800, 3⟩,
    ⟨[725, 730, 731, 761, 772, 773, 822, 833, 834, 854, 878, 880], 0x4e0608002703049d1422700000000004e000a0800, 3⟩,
    ⟨[727, 778, 839, 965], 0x18001b0800, 0⟩,
    ⟨[726, 760, 776, 780, 784, 787, 821, 837, 841, 845, 853, 947, 963, 967, 971, 978, 986, 1088, 1090, 1092], 0x18d85b0b610000000000000000000000000748e91d2000d8800000, 35⟩,
    ⟨[725, 730, 731, 763, 772, 773, 824, 833, 834, 950, 959, 960], 0xd8c070006c6039b180e6c60000000004e000e7800, 3⟩,
    ⟨[605, 726, 760, 782, 785, 787, 821, 843, 846, 853, 866, 869, 906, 910, 1088, 1090], 0x18720e41c80000000000000000000000000aa9552aa000a4000000, 12⟩,
    ⟨[61, 62, 65, 66, 87, 89, 94, 112, 295, 349, 350, 353, 354, 375, 377, 382, 400, 637, 653, 655, 660, 726, 760, 774, 775, 777, 779, 784, 787, 821, 835, 836, 838, 840, 845, 853, 1008, 1010, 1012, 1015, 1088, 1090], 0x184d89b13500000000000000000000000004d09a1340004cc00000, 43⟩,
    ⟨[725, 730, 731, 766, 772, 773, 827, 833, 834, 854, 868, 874, 878, 880, 890, 1079], 0xd59aa8002703189d1392700000000021e0009b800, 3⟩,
    ⟨[64, 68, 90, 91, 352, 356, 378, 379, 602, 658, 725, 730, 731, 766, 772, 773, 827, 833, 834, 854, 868, 874, 878, 880, 890, 1006, 1013, 1079], 0xd59aa8002703189d1392700000000021e0009e800, 3⟩,
    ⟨[362, 368, 608, 725, 730, 731, 761, 772, 773, 822, 833, 834, 854, 878, 880], 0x4e0608002703049d1422700000000067e000a0800, 3⟩,
    ⟨[239, 264, 527, 552, 727], 0x1800156800, 0⟩,
    ⟨[243, 249, 252, 271, 531, 537, 540, 559, 725, 730, 731], 0x38070006cad95b2b656ca000000006c800006000, 3⟩,
    ⟨[248, 251, 288, 292, 298, 536, 539, 576, 580, 640, 726], 0x180300600c0000000000000000000000000d99b336600009400000, 44⟩,
    ⟨[234, 236, 262, 289, 522, 524, 550, 577, 628, 725, 730, 731], 0x380700001c039b3b6701c0000000004e000ec800, 3⟩,
    ⟨[189, 233, 234, 236, 262, 289, 477, 521, 522, 524, 550, 577, 628, 725, 729, 730, 731], 0x6d00380700001c039b3b6701c0000000004e000ec800, 3⟩,
    ⟨[233, 234, 236, 262, 289, 521, 522, 524, 550, 577, 628, 725, 730, 731], 0x6d20380700001c039b3b6701c0000000004e000ec800, 3⟩,
    ⟨[170, 194, 196, 234, 236, 262, 289, 458, 482, 484, 522, 524, 550, 577, 619, 628, 725, 730, 731], 0x380700001c039b5b6b01c0000000004e001b5000, 3⟩,
    ⟨[171, 172, 175, 176, 197, 199, 204, 222, 297, 459, 460, 463, 464, 485, 487, 492, 510, 639, 726], 0x180300636e0000000000000000000000000db5b6b6d000db000000, 29⟩,
    ⟨[191, 192, 479, 480, 728], 0x27018000000006dedbdb8b6f6dedc1b7b6f6de0000000000009400000, 0⟩,
    ⟨[171, 172, 175, 176, 197, 199, 204, 222, 245, 248, 251, 268, 288, 292, 297, 298, 459, 460, 463, 464, 485, 487, 492, 510, 533, 536, 539, 556, 576, 580, 630, 633, 639, 640, 726], 0x18030063740000000000000000000000000dcdb9b73000dc800000, 45⟩,
    ⟨[171, 172, 175, 176, 197, 199, 204, 459, 460, 463, 464, 485, 487, 492, 726], 0x180300636e0000000000000000000000000db5b6b6d000db000000, 0⟩,
    ⟨[519, 520, 728], 0x270180000000001c038073756eedd9bab756ea0000000000009400000, 0⟩,
    ⟨[623, 726], 0x180300600c0000000000000000000000000ae15c2b800009400000, 0⟩,
    ⟨[472, 478, 626, 725, 730, 731], 0x380700001c0380700e01c000000006f000006000, 3⟩,
    ⟨[614, 726], 0x180300600c0000000000000000000000000af15e2bc00009400000, 0⟩,
    ⟨[116, 117, 120, 121, 142, 144, 149, 167, 296, 404, 405, 408, 409, 430, 432, 437, 455, 638, 726], 0x180300614a0000000000000000000000000524a494900052000000, 30⟩,
    ⟨[136, 137, 424, 425, 728], 0x27018000000003cc799bd1e63ccde4f31e63cc0000000000009400000, 0⟩,
    ⟨[417, 423, 617, 725, 730, 731], 0x380700001c0380700e01c000000005a400006000, 3⟩,
    ⟨[134, 422, 725, 729, 730, 731], 0x6f60380700001c0380700e01c0000000004e00006000, 3⟩,
    ⟨[125, 140, 164, 413, 428, 452, 611, 725, 730, 731, 864, 879, 903], 0x380700001c0380700e01c0000000004e001be000, 3⟩,
    ⟨[116, 117, 120, 121, 142, 144, 149, 404, 405, 408, 409, 430, 432, 437, 726, 855, 856, 859, 860, 881, 883, 888], 0x180300637f0000000000000000000000000df9bf37e000df400000, 0⟩,
    ⟨[119, 123, 145, 146, 407, 411, 433, 434, 611, 725, 730, 731, 858, 862, 884, 885], 0x380700001c0380700e01c0000000004e001c0000, 3⟩,
    ⟨[115, 138, 139, 141, 403, 426, 427, 429, 610, 725, 729, 730, 731, 854, 877, 878, 880], 0x57c0380700001c039602c001c0000000004e0015f800, 3⟩,
    ⟨[115, 138, 139, 141, 403, 426, 427, 429, 610, 725, 730, 731, 854, 877, 878, 880], 0x7020380700001c039602c001c0000000004e0015f800, 3⟩,
    ⟨[725, 730, 731, 790, 801, 802, 1052, 1061, 1063, 1064, 1080], 0xe0dc2000706e11c1b847060000000004e001c1000, 46⟩,
    ⟨[725, 730, 731, 795, 801, 802, 1057, 1062, 1063, 1064, 1081], 0xe0dc2800706e15c1b857060000000004e001c1000, 46⟩,
    ⟨[726, 789, 803, 804, 806, 808, 813, 820, 1019, 1033, 1034, 1036, 1038, 1043, 1050, 1084, 1089], 0x18e1dc3b870000000000000000000000000b21642c8000e1800000, 47⟩,
    ⟨[725, 730, 731, 795, 801, 802, 1025, 1031, 1032], 0xb196400058cb21632c858c0000000004e00162800, 3⟩,
    ⟨[725, 730, 731, 791, 801, 802, 1021, 1031, 1032], 0xb19c400058ce216338858c0000000004e00162800, 3⟩,
    ⟨[725, 730, 731, 790, 801, 802, 1020, 1031, 1032], 0xb196380058cb1d632c758c0000000004e00162800, 3⟩,
    ⟨[725, 730, 731, 790, 801, 802, 1020, 1031, 1032, 1052, 1061, 1063, 1064, 1080], 0xe29c5800714e2dc538b7140000000004e001c4800, 46⟩,
    ⟨[725, 730, 731, 795, 801, 802, 1025, 1031, 1032, 1057, 1062, 1063, 1064, 1081], 0xe29c6000714e31c538c7140000000004e001c4800, 46⟩,
    ⟨[118, 143, 406, 431, 656, 727, 807, 857, 882], 0x18000a6000, 0⟩,
    ⟨[613], 0x1c6800, 0⟩,
    ⟨[115, 129, 135, 139, 141, 166, 403, 417, 423, 427, 429, 454, 610], 0x1c83900000000000071e001c7000, 0⟩,
    ⟨[616], 0xe45c8b9100000000000, 0⟩,
    ⟨[726, 789, 811, 814, 820, 947, 969, 972, 978, 986, 1089, 1092], 0x18b3d67acf0000000000000000000000000564ac959000e4800000, 31⟩,
    ⟨[727, 810, 968], 0x1800167800, 0⟩,
    ⟨[725, 730, 731, 793, 794, 951, 952], 0x55cac8002ae564ab9592ae0000000004e00006000, 3⟩,
    ⟨[424, 425, 728], 0x2701800000000726e4dcab93726e51c9b937260000000000009400000, 0⟩,
    ⟨[727, 812, 934], 0x1800100000, 0⟩,
    ⟨[726, 789, 811, 814, 820, 911, 933, 936, 942, 946, 947, 969, 972, 978, 986, 1089, 1091, 1092], 0x18b516a2d4000000000000000000000000058cb1963000e5800000, 32⟩,
    ⟨[727, 810, 932, 968], 0x180016a000, 0⟩,
    ⟨[725, 730, 731, 793, 794, 915, 916, 951, 952], 0x584b18002c258cb09632c20000000004e00006000, 3⟩,
    ⟨[642, 644, 647, 649, 725, 730, 731, 795, 801, 802, 1005, 1018, 1047, 1077, 1078], 0x7c0f78003da1e5ccb983da0000000004e001cb800, 3⟩,
    ⟨[642, 644, 647, 649, 725, 730, 731, 791, 801, 802, 1005, 1018, 1077, 1078], 0x7b43f8003da1fdccb9a3da0000000004e001cb800, 3⟩,
    ⟨[652, 654, 657, 659, 725, 730, 731, 790, 801, 802, 1005], 0x20c24800106125ce39b1060000000004e000b2000, 3⟩,
    ⟨[122, 128, 131, 150, 410, 416, 419, 438, 641, 725, 730, 731, 790, 801, 802, 861, 867, 870, 889], 0x20c248002ca5a0b29682ca0000000029a00041000, 3⟩,
    ⟨[122, 128, 131, 150, 410, 416, 419, 438, 641, 652, 654, 657, 659, 725, 730, 731, 790, 801, 802, 861, 867, 870, 889, 1005, 1018, 1077, 1078], 0x7b42480073a5a1cf16673a0000000029a000b2000, 3⟩,
    ⟨[72, 75, 112, 295, 360, 363, 400, 637, 651, 685, 686, 726, 760, 782, 785, 787, 789, 811, 814, 820, 1088, 1089], 0x18b89712e20000000000000000000000000e81d03a0000e7c00000, 26⟩,
    ⟨[60, 74, 80, 84, 86, 96, 348, 362, 368, 372, 374, 384, 601, 642, 644, 647, 649, 725, 730, 731, 766, 772, 773, 795, 801, 802, 1005, 1018, 1047, 1077, 1078], 0xe99d280074486dd23a3744000000004b6001d0800, 3⟩,
    ⟨[60, 74, 80, 84, 86, 96, 348, 362, 368, 372, 374, 384, 601, 642, 644, 647, 649, 725, 730, 731, 762, 772, 773, 791, 801, 802, 1005, 1018, 1077, 1078], 0xe8910000744881d23a7744000000004b6001d0800, 3⟩,
    ⟨[725, 730, 731, 766, 772, 773, 795, 801, 802, 1047], 0xea1d280043086d0c21b4300000000004e00110800, 3⟩,
    ⟨[727, 781, 810], 0x1800171000, 0⟩,
    ⟨[60, 84, 86, 348, 372, 374, 601, 652, 654, 657, 659, 725, 730, 731, 761, 772, 773, 790, 801, 802, 1005], 0x860b90004305c9d5baa4300000000004e001d4800, 3⟩,
    ⟨[726, 760, 782, 785, 787, 789, 811, 814, 820, 1088, 1089], 0x18b89712e2000000000000000000000000086d0da1b000e7c00000, 14⟩,
    ⟨[54, 70, 109, 114, 125, 140, 164, 342, 358, 397, 402, 413, 428, 452, 602, 611, 725, 730, 731, 864, 879, 903], 0x380700001c0380700e01c0000000004e001d6000, 3⟩,
    ⟨[61, 62, 65, 66, 87, 89, 94, 116, 117, 120, 121, 142, 144, 149, 349, 350, 353, 354, 375, 377, 382, 404, 405, 408, 409, 430, 432, 437, 726, 855, 856, 859, 860, 881, 883, 888], 0x18030063af0000000000000000000000000eb9d73ae000eb400000, 0⟩,
    ⟨[64, 68, 90, 91, 119, 123, 145, 146, 352, 356, 378, 379, 407, 411, 433, 434, 602, 611, 725, 730, 731, 858, 862, 884, 885], 0x380700001c0380700e01c0000000004e001d8000, 3⟩,
    ⟨[118, 143, 406, 431, 646, 727, 778, 807, 857, 882], 0x18001d8800, 0⟩,
    ⟨[122, 128, 131, 150, 410, 416, 419, 438, 641, 725, 730, 731, 761, 772, 773, 790, 801, 802, 861, 867, 870, 889], 0x860b90007645c5d91717640000000029a00110800, 3⟩,
    ⟨[127, 130, 167, 296, 415, 418, 455, 638, 651, 685, 686, 726, 760, 776, 780, 784, 787, 789, 805, 809, 813, 820, 866, 869, 906, 910, 1088, 1089], 0x18b89712e20000000000000000000000000ecdd9bb3000b8000000, 33⟩,
    ⟨[124, 127, 130, 147, 167, 296, 412, 415, 418, 435, 455, 612, 615, 638, 651, 685, 686, 726, 760, 774, 775, 777, 779, 784, 787, 789, 803, 804, 806, 808, 813, 820, 863, 866, 869, 886, 906, 910, 1088, 1089], 0x18bcd79bb500000000000000000000000005e4bc979000ed000000, 33⟩,
    ⟨[726, 760, 774, 775, 777, 779, 784, 787, 789, 803, 804, 806, 808, 813, 820, 947, 961, 962, 964, 966, 971, 978, 986, 1088, 1089, 1092], 0x18edddbbb70000000000000000000000000bb576aed000ed800000, 35⟩,
    ⟨[725, 730, 731, 766, 772, 773, 795, 801, 802, 953, 959, 960], 0xbad768005d6bb575aed5d60000000004e00175000, 3⟩,
    ⟨[725, 730, 731, 762, 772, 773, 791, 801, 802, 949, 959, 960], 0xbaddc0005d6ee175bb85d60000000004e00175000, 3⟩,
    ⟨[725, 730, 731, 761, 772, 773, 790, 801, 802, 948, 959, 960], 0xbad760005d6bb175aec5d60000000004e00175000, 3⟩,
    ⟨[118, 143, 406, 431, 604, 646, 727, 778, 807, 857, 882], 0x18001dc800, 0⟩,
    ⟨[60, 74, 80, 84, 86, 93, 122, 128, 131, 150, 348, 362, 368, 372, 374, 381, 410, 416, 419, 438, 601, 641, 652, 654, 657, 659, 725, 730, 731, 761, 772, 773, 790, 801, 802, 861, 867, 870, 889, 1005, 1018, 1077, 1078], 0xe88b90007785c5de96f77800000000776001dd000, 3⟩,
    ⟨[127, 130, 167, 296, 415, 418, 455, 607, 638, 651, 685, 686, 726, 760, 776, 780, 784, 787, 789, 805, 809, 813, 820, 866, 869, 906, 910, 1088, 1089], 0x18b89712e20000000000000000000000000ef9df3be000b8000000, 33⟩,
    ⟨[725, 730, 731, 764, 765, 793, 794], 0x8610d80043086d0c21b4300000000004e00006000, 3⟩,
    ⟨[727, 778, 807], 0x1800171000, 0⟩,
    ⟨[726, 760, 776, 780, 784, 787, 789, 805, 809, 813, 820, 1088, 1089], 0x18b89712e2000000000000000000000000086d0da1b000b8000000, 14⟩,
    ⟨[118, 143, 406, 431, 656, 727, 778, 807, 857, 882], 0x18001d8800, 0⟩,
    ⟨[656, 727, 778, 807], 0x18001df800, 0⟩,
    ⟨[641, 725, 730, 731, 761, 772, 773, 790, 801, 802], 0x860b9000780f05e03c17800000000004e00110800, 3⟩,
    ⟨[651, 685, 686, 726, 760, 774, 775, 777, 779, 784, 787, 789, 803, 804, 806, 808, 813, 820, 1088, 1089], 0x18bcd79af300000000000000000000000005dcbb977000bc800000, 27⟩,
    ⟨[643, 645, 648, 726, 789, 803, 804, 806, 808, 813, 820, 855, 856, 859, 860, 881, 883, 888, 906, 910, 1089], 0x183606c17f00000000000000000000000005f8bf17e000f0800000, 6⟩,
    ⟨[650, 725, 730, 731, 790, 801, 802, 858, 862, 884, 885], 0x20c24800106124418491060000000004e000c0000, 3⟩,
    ⟨[650, 725, 730, 731, 795, 801, 802, 858, 862, 884, 885], 0x20c3c8001061e4418791060000000004e000c0000, 3⟩,
    ⟨[650, 725, 730, 731, 792, 801, 802, 858, 862, 884, 885], 0x3a0070001d00387400e1d00000000004e000c0000, 3⟩,
    ⟨[653, 655, 660, 726, 789, 803, 804, 806, 808, 813, 820, 855, 856, 859, 860, 881, 883, 888, 1089], 0x183606c17f00000000000000000000000005f8bf17e000f0c00000, 4⟩,
    ⟨[658, 725, 730, 731, 791, 801, 802, 858, 862, 884, 885], 0x20c3f8001061fc4187f1060000000004e000c0000, 3⟩,
    ⟨[658, 725, 730, 731, 795, 801, 802, 858, 862, 884, 885], 0x20c3c8001061e4418791060000000004e000c0000, 3⟩,
    ⟨[653, 655, 660, 726, 789, 803, 804, 806, 808, 813, 820, 855, 856, 859, 860, 881, 883, 888, 906, 910, 1089], 0x183606c17f00000000000000000000000005f8bf17e000f0c00000, 6⟩,
    ⟨[643, 645, 648, 651, 685, 686, 726, 789, 803, 804, 806, 808, 813, 820, 855, 856, 859, 860, 881, 883, 888, 906, 910, 1007, 1014, 1089], 0x183606c17f0000000000000000000000000f11e23c4000f0800000, 25⟩,
    ⟨[116, 117, 120, 121, 142, 144, 149, 167, 296, 404, 405, 408, 409, 430, 432, 437, 455, 638, 726, 789, 803, 804, 806, 808, 813, 820, 855, 856, 859, 860, 881, 883, 888, 906, 910, 1008, 1010, 1012, 1015, 1089], 0x183a8753c70000000000000000000000000f19e33c6000f1400000, 36⟩,
    ⟨[119, 123, 145, 146, 407, 411, 433, 434, 611, 725, 730, 731, 791, 801, 802, 858, 862, 884, 885, 1006, 1013], 0x20c3f8001061fc4187f1060000000004e001e4000, 3⟩,
    ⟨[119, 123, 145, 146, 407, 411, 433, 434, 611, 725, 730, 731, 795, 801, 802, 858, 862, 884, 885, 1006, 1013, 1079], 0xb11618001061e4418791060000000004e001e4000, 3⟩,
    ⟨[726, 789, 803, 804, 806, 808, 813, 820, 855, 856, 859, 860, 881, 883, 888, 906, 910, 1089], 0x183a875189000000000000000000000000062cc598b00061c00000, 6⟩,
    ⟨[651, 685, 686, 726, 789, 803, 804, 806, 808, 813, 820, 855, 856, 859, 860, 881, 883, 888, 906, 910, 1007, 1014, 1089], 0x183a8751890000000000000000000000000f25e4bc900061c00000, 25⟩,
    ⟨[725, 730, 731, 791, 801, 802, 858, 862, 884, 885], 0x20c3f8001061fc4187f1060000000004e000c5000, 3⟩,
    ⟨[726, 760, 774, 775, 777, 779, 784, 787, 789, 803, 804, 806, 808, 813, 820, 855, 856, 859, 860, 881, 883, 888, 906, 910, 1088, 1089], 0x18bcd79bcc0000000000000000000000000f2de5bcb000f2800000, 12⟩,
    ⟨[725, 730, 731, 761, 772, 773, 790, 801, 802, 858, 862, 884, 885], 0x860b90004305c90c1724300000000004e001e6800, 3⟩,
    ⟨[725, 730, 731, 766, 772, 773, 795, 801, 802, 858, 862, 884, 885], 0x8610d80043086d0c21b4300000000004e001e6800, 3⟩,
    ⟨[69, 72, 75, 92, 112, 295, 357, 360, 363, 380, 400, 603, 606, 637, 651, 685, 686, 726, 760, 774, 775, 777, 779, 784, 787, 789, 803, 804, 806, 808, 813, 820, 855, 856, 859, 860, 881, 883, 888, 906, 910, 1007, 1014, 1088, 1089], 0x18bcd79bd00000000000000000000000000f3de7bcf000f3800000, 28⟩,
    ⟨[725, 730, 731, 763, 772, 773, 792, 801, 802, 858, 862, 884, 885], 0xbc4070005e20397880e5e20000000004e001e6800, 3⟩,
    ⟨[726, 760, 774, 775, 777, 779, 784, 787, 789, 803, 804, 806, 808, 813, 820, 855, 856, 859, 860, 881, 883, 888, 1088, 1089], 0x18bcd79bcc0000000000000000000000000f2de5bcb000f2800000, 14⟩,
    ⟨[725, 730, 731, 762, 772, 773, 791, 801, 802, 858, 862, 884, 885], 0x861100004308810c2204300000000004e001e6800, 3⟩,
    ⟨[643, 645, 648, 726, 789, 803, 804, 806, 808, 813, 820, 1089], 0x183606c0d80000000000000000000000000644c8991000f4400000, 4⟩,
    ⟨[650, 725, 730, 731, 790, 801, 802], 0x20c24800106124418491060000000004e000c9000, 3⟩,
    ⟨[650, 725, 730, 731, 795, 801, 802], 0x20c3c8001061e4418791060000000004e000c9000, 3⟩,
    ⟨[650, 725, 730, 731, 792, 801, 802], 0x3a0070001d00387400e1d00000000004e000c9000, 3⟩,
    ⟨[725, 730, 731, 854, 868, 874, 878, 880, 905], 0x380700001c0381803001c0000000021e00087000, 3⟩,
    ⟨[865, 866, 869, 904, 906, 910], 0xf49e93d200000000000, 5⟩,
    ⟨[646, 727], 0x1800089800, 0⟩,
    ⟨[725, 730, 731, 1052, 1061, 1063, 1064, 1080], 0xf51ea8007a8f55ea3d57a80000000004e001e9800, 46⟩,
    ⟨[725, 730, 731, 1057, 1062, 1063, 1064, 1081], 0xf51eb0007a8f59ea3d67a80000000004e001e9800, 46⟩,
    ⟨[651, 685, 686, 726, 1007, 1014], 0x180300600c0000000000000000000000000f5debbd700009400000, 20⟩,
    ⟨[726, 1019, 1033, 1034, 1036, 1038, 1043, 1050, 1084], 0x18f65ecbd90000000000000000000000000c6d8db1b000f6000000, 48⟩,
    ⟨[725, 730, 731, 1025, 1031, 1032], 0xc658d800632c6d8cb1b6320000000004e0018c000, 3⟩,
    ⟨[725, 730, 731, 1021, 1031, 1032], 0xc65ed000632f698cbda6320000000004e0018c000, 3⟩,
    ⟨[725, 730, 731, 1020, 1031, 1032], 0xc658d000632c698cb1a6320000000004e0018c000, 3⟩,
    ⟨[725, 730, 731, 1020, 1031, 1032, 1052, 1061, 1063, 1064, 1080], 0xf71ee8007b8f75ee3dd7b80000000004e001ed800, 46⟩,
    ⟨[725, 730, 731, 1025, 1031, 1032, 1057, 1062, 1063, 1064, 1081], 0xf71ef0007b8f79ee3de7b80000000004e001ed800, 46⟩,
    ⟨[641, 725, 730, 731], 0x38070007bef7defbdf7be0000000004e00006000, 3⟩,
    ⟨[61, 62, 65, 66, 87, 89, 94, 349, 350, 353, 354, 375, 377, 382, 653, 655, 660, 726, 760, 774, 775, 777, 779, 784, 787, 1088], 0x184648cbe10000000000000000000000000f81f03e000045800000, 11⟩,
    ⟨[64, 68, 90, 91, 352, 356, 378, 379, 602, 658, 725, 730, 731, 762, 772, 773], 0x4789280023c4948f12523c0000000004e001f1000, 3⟩,
    ⟨[64, 68, 90, 91, 352, 356, 378, 379, 602, 658, 725, 730, 731, 766, 772, 773], 0x4785680023c2b48f0ad23c0000000004e001f1000, 3⟩,
    ⟨[70, 85, 109, 358, 373, 397, 602, 725, 730, 731], 0x380700001c0380700e01c0000000004e001f1800, 3⟩,
    ⟨[63, 88, 351, 376, 646, 727, 778], 0x18000ce800, 0⟩,
    ⟨[60, 83, 84, 86, 348, 371, 372, 374, 601, 725, 729, 730, 731], 0x6440380700001c038d39a701c0000000004e000d3000, 3⟩,
    ⟨[60, 83, 84, 86, 348, 371, 372, 374, 601, 725, 730, 731], 0x7c80380700001c038d39a701c0000000004e000d3000, 3⟩,
    ⟨[725, 730, 731, 761, 772, 773, 1052, 1061, 1063, 1064, 1080], 0xf99f38007ccf9df33e77cc0000000004e001f2800, 46⟩,
    ⟨[725, 730, 731, 766, 772, 773, 1057, 1062, 1063, 1064, 1081], 0xf99f40007ccfa1f33e87cc0000000004e001f2800, 46⟩,
    ⟨[69, 72, 75, 92, 112, 295, 357, 360, 363, 380, 400, 603, 606, 637, 651, 685, 686, 726, 760, 774, 775, 777, 779, 784, 787, 1007, 1014, 1088], 0x186b8d73eb0000000000000000000000000fa9f53ea000fa400000, 22⟩,
    ⟨[726, 760, 774, 775, 777, 779, 784, 787, 1019, 1033, 1034, 1036, 1038, 1043, 1050, 1084, 1088], 0x18fb5f6bed0000000000000000000000000cb19632c000fb000000, 49⟩,
    ⟨[725, 730, 731, 766, 772, 773, 1025, 1031, 1032], 0xca996000654cb19532c6540000000004e00194800, 3⟩,
    ⟨[725, 730, 731, 762, 772, 773, 1021, 1031, 1032], 0xca9f7000654fb9953ee6540000000004e00194800, 3⟩,
    ⟨[725, 730, 731, 761, 772, 773, 1020, 1031, 1032], 0xca995800654cad9532b6540000000004e00194800, 3⟩,
    ⟨[725, 730, 731, 761, 772, 773, 1020, 1031, 1032, 1052, 1061, 1063, 1064, 1080], 0xfc1f88007e0fc5f83f17e00000000004e001f7800, 46⟩,
    ⟨[725, 730, 731, 766, 772, 773, 1025, 1031, 1032, 1057, 1062, 1063, 1064, 1081], 0xfc1f90007e0fc9f83f27e00000000004e001f7800, 46⟩,
    ⟨[656, 727, 778], 0x18001f9800, 0⟩,
    ⟨[641, 725, 730, 731, 761, 772, 773], 0x478540007e8fd5fa3f57e80000000004e00093000, 3⟩,
    ⟨[651, 685, 686, 726, 760, 774, 775, 777, 779, 784, 787, 1088], 0x186b8d71ae0000000000000000000000000694d29a50006e000000, 23⟩,
    ⟨[60, 74, 80, 84, 86, 96, 348, 362, 368, 372, 374, 384, 601, 725, 730, 731], 0x380700001c038d39a701c000000004b6001fb000, 3⟩,
    ⟨[604, 727], 0x18001fb800, 0⟩,
    ⟨[60, 74, 80, 84, 86, 93, 348, 362, 368, 372, 374, 381, 601, 725, 730, 731], 0x380700001c038d39a701c000000004b6001fb000, 3⟩,
    ⟨[607, 726], 0x180300600c0000000000000000000000000fe1fc3f800009400000, 0⟩,
    ⟨[60, 74, 80, 84, 86, 111, 348, 362, 368, 372, 374, 399, 601, 725, 730, 731, 854, 868, 874, 878, 880, 905], 0x380700001c038d51aa01c000000007f4001fc800, 3⟩,
    ⟨[77, 78, 365, 366, 728, 871, 872], 0x270180000000001c0380733901cfec0700e01c0000000000009400000, 0⟩,
    ⟨[60, 74, 80, 84, 86, 96, 348, 362, 368, 372, 374, 384, 601, 725, 730, 731, 854, 868, 874, 878, 880, 890], 0x380700001c038d51aa01c000000007f4001fc800, 3⟩,
    ⟨[60, 84, 86, 348, 372, 374, 601, 725, 730, 731, 854, 878, 880], 0x380700001c038d51aa01c0000000004e000d4800, 3⟩,
    ⟨[60, 74, 80, 84, 86, 93, 348, 362, 368, 372, 374, 381, 601, 725, 730, 731, 854, 868, 874, 878, 880, 887], 0x380700001c038d51aa01c000000007f4001fc800, 3⟩,
    ⟨[726, 760, 782, 785, 787, 947, 969, 972, 978, 986, 1088, 1092], 0x18ced9db3b00000000000000000000000006ccd99b3000ff000000, 34⟩,
    ⟨[727, 781, 968], 0x180019d800, 0⟩,
    ⟨[725, 730, 731, 764, 765, 951, 952], 0x6c4d98003626ccd89b33620000000004e00006000, 3⟩,
    ⟨[60, 83, 84, 86, 348, 371, 372, 374, 601, 725, 729, 730, 731, 873], 0x7fa0380700001c038d39a701c0000000004e000d3000, 3⟩,
    ⟨[369, 370, 728], 0x27018000000007fcffa003fe7fcffdff3fe7fc0000000000009400000, 0⟩,
    ⟨[351, 376, 727], 0x18001a1000, 0⟩,
    ⟨[355, 361, 364, 383, 725, 730, 731], 0x380700080500a014028040000000080200006000, 3⟩,
    ⟨[360, 363, 400, 637, 726], 0x180300600c0000000000000000000000000ff9ff3fe00009400000, 50⟩,
    ⟨[357, 360, 363, 380, 400, 603, 606, 637, 726], 0x1803006335000000000000000000000000100e01c03000ccc00000, 50⟩,
    ⟨[359, 360, 363, 398, 400, 603, 606, 637, 726], 0x1803006335000000000000000000000000101202404000ccc00000, 50⟩,
    ⟨[646, 727, 839], 0x18000dd800, 0⟩,
    ⟨[725, 730, 731, 822, 833, 834, 1052, 1061, 1063, 1064, 1080], 0x101a0380080d01e0340780c0000000004e00202800, 46⟩,
    ⟨[725, 730, 731, 827, 833, 834, 1057, 1062, 1063, 1064, 1081], 0x101a0400080d0220340880c0000000004e00202800, 46⟩,
    ⟨[651, 685, 686, 726, 821, 835, 836, 838, 840, 845, 853, 1007, 1014, 1090], 0x1818831062000000000000000000000000102604c0900019800000, 16⟩,
    ⟨[726, 821, 835, 836, 838, 840, 845, 853, 1019, 1033, 1034, 1036, 1038, 1043, 1050, 1084, 1090], 0x1902e05c0b0000000000000000000000000d31a634c00102800000, 47⟩,
    ⟨[725, 730, 731, 827, 833, 834, 1025, 1031, 1032], 0xd29a6000694d31a534c6940000000004e001a4800, 3⟩,
    ⟨[725, 730, 731, 823, 833, 834, 1021, 1031, 1032], 0xd2a06000695031a540c6940000000004e001a4800, 3⟩,
    ⟨[725, 730, 731, 822, 833, 834, 1020, 1031, 1032], 0xd29a5800694d2da534b6940000000004e001a4800, 3⟩,
    ⟨[725, 730, 731, 822, 833, 834, 1020, 1031, 1032, 1052, 1061, 1063, 1064, 1080], 0x103a0780081d03e0740f81c0000000004e00206800, 46⟩,
    ⟨[725, 730, 731, 827, 833, 834, 1025, 1031, 1032, 1057, 1062, 1063, 1064, 1081], 0x103a0800081d0420741081c0000000004e00206800, 46⟩,
    ⟨[641, 725, 730, 731, 822, 833, 834], 0x6c0d00082304a08c128220000000004e0001e000, 3⟩,
    ⟨[651, 685, 686, 726, 821, 835, 836, 838, 840, 845, 853, 1090], 0x18188310620000000000000000000000000700e01c000019800000, 16⟩,
    ⟨[61, 62, 65, 66, 87, 89, 94, 349, 350, 353, 354, 375, 377, 382, 653, 655, 660, 726, 760, 774, 775, 777, 779, 784, 787, 821, 835, 836, 838, 840, 845, 853, 1088, 1090], 0x184d89b414000000000000000000000000104e09c130004cc00000, 14⟩,
    ⟨[64, 68, 90, 91, 352, 356, 378, 379, 602, 658, 725, 730, 731, 762, 772, 773, 823, 833, 834], 0x4e09f8002704fc9c13f2700000000004e0020a800, 3⟩,
    ⟨[64, 68, 90, 91, 352, 356, 378, 379, 602, 658, 725, 730, 731, 766, 772, 773, 827, 833, 834], 0x4e0630002703189c0c62700000000004e0020a800, 3⟩,
    ⟨[63, 88, 351, 376, 646, 727, 778, 839], 0x18000e1000, 0⟩,
    ⟨[725, 730, 731, 761, 772, 773, 822, 833, 834, 1052, 1061, 1063, 1064, 1080], 0x105e0c00082f0620bc1882e0000000004e0020b000, 46⟩,
    ⟨[725, 730, 731, 766, 772, 773, 827, 833, 834, 1057, 1062, 1063, 1064, 1081], 0x105e0c80082f0660bc1982e0000000004e0020b000, 46⟩,
    ⟨[69, 72, 75, 92, 112, 295, 357, 360, 363, 380, 400, 603, 606, 637, 651, 685, 686, 726, 760, 774, 775, 777, 779, 784, 787, 821, 835, 836, 838, 840, 845, 853, 1007, 1014, 1088, 1090], 0x18734e6c1c000000000000000000000000106e0dc1b00106800000, 26⟩,
    ⟨[726, 760, 774, 775, 777, 779, 784, 787, 821, 835, 836, 838, 840, 845, 853, 1019, 1033, 1034, 1036, 1038, 1043, 1050, 1084, 1088, 1090], 0x1907a0f41e0000000000000000000000000d6dadb5b00107400000, 51⟩,
    ⟨[725, 730, 731, 766, 772, 773, 827, 833, 834, 1025, 1031, 1032], 0xd65ad8006b2d6dacb5b6b20000000004e001ac000, 3⟩,
    ⟨[725, 730, 731, 762, 772, 773, 823, 833, 834, 1021, 1031, 1032], 0xd660f8006b307dacc1f6b20000000004e001ac000, 3⟩,
    ⟨[725, 730, 731, 761, 772, 773, 822, 833, 834, 1020, 1031, 1032], 0xd65ad0006b2d69acb5a6b20000000004e001ac000, 3⟩,
    ⟨[725, 730, 731, 761, 772, 773, 822, 833, 834, 1020, 1031, 1032, 1052, 1061, 1063, 1064, 1080], 0x10861100084308a10c228420000000004e00210000, 46⟩,
    ⟨[725, 730, 731, 766, 772, 773, 827, 833, 834, 1025, 1031, 1032, 1057, 1062, 1063, 1064, 1081], 0x10861180084308e10c238420000000004e00210000, 46⟩,
    ⟨[656, 727, 778, 839], 0x1800212000, 0⟩,
    ⟨[641, 725, 730, 731, 761, 772, 773, 822, 833, 834], 0x4e06080084b09a12c2684a0000000004e000a0000, 3⟩,
    ⟨[651, 685, 686, 726, 760, 774, 775, 777, 779, 784, 787, 821, 835, 836, 838, 840, 845, 853, 1088, 1090], 0x18734e69cd0000000000000000000000000724e49c900075c00000, 27⟩,
    ⟨[726, 760, 782, 785, 787, 821, 843, 846, 853, 947, 969, 972, 978, 986, 1088, 1090, 1092], 0x18d85b0b610000000000000000000000000748e91d200109c00000, 35⟩,
    ⟨[727, 781, 842, 968], 0x18001b0800, 0⟩,
    ⟨[725, 730, 731, 764, 765, 825, 826, 951, 952], 0x740e90003a0748e81d23a00000000004e00006000, 3⟩,
    ⟨[253, 254, 541, 542, 728], 0x270180000000001c0380736601d0a00700e01c0000000000009400000, 0⟩,
    ⟨[236, 250, 256, 260, 262, 272, 524, 538, 544, 548, 550, 560, 628, 725, 730, 731], 0x380700001c039b3b6701c0000000085400214800, 3⟩,
    ⟨[236, 260, 262, 524, 548, 550, 628, 725, 730, 731], 0x380700001c039b3b6701c0000000004e000ec800, 3⟩,
    ⟨[240, 244, 266, 267, 528, 532, 554, 555, 629, 725, 730, 731], 0x380700001c0380700e01c0000000004e00215800, 3⟩,
    ⟨[180, 195, 219, 235, 246, 285, 290, 468, 483, 507, 523, 534, 573, 578, 620, 629, 725, 730, 731], 0x380700001c0380700e01c0000000004e00216000, 3⟩,
    ⟨[235, 246, 285, 290, 523, 534, 573, 578, 629], 0x216800, 0⟩,
    ⟨[171, 172, 175, 176, 197, 199, 204, 237, 238, 241, 242, 263, 265, 270, 459, 460, 463, 464, 485, 487, 492, 525, 526, 529, 530, 551, 553, 558, 726], 0x180300643000000000000000000000000010be17c2f0010b800000, 0⟩,
    ⟨[174, 178, 200, 201, 240, 244, 266, 267, 462, 466, 488, 489, 528, 532, 554, 555, 620, 629, 725, 730, 731], 0x380700001c0380700e01c0000000004e00218800, 3⟩,
    ⟨[173, 198, 461, 486, 727], 0x18001b7000, 0⟩,
    ⟨[177, 183, 186, 205, 465, 471, 474, 493, 725, 730, 731], 0x38070003b676ced9db3b60000000086400006000, 3⟩,
    ⟨[182, 185, 222, 297, 470, 473, 510, 639, 726], 0x180300600c0000000000000000000000000dbdb7b6f00009400000, 29⟩,
    ⟨[170, 194, 196, 458, 482, 484, 619, 725, 730, 731], 0x380700001c038688d101c0000000004e0015a800, 3⟩,
    ⟨[170, 193, 194, 196, 458, 481, 482, 484, 619, 725, 729, 730, 731], 0x8660380700001c038688d101c0000000004e0015a800, 3⟩,
    ⟨[170, 193, 194, 196, 458, 481, 482, 484, 619, 725, 730, 731], 0x8680380700001c038688d101c0000000004e0015a800, 3⟩,
    ⟨[173, 198, 461, 486, 631, 727], 0x180021a800, 0⟩,
    ⟨[177, 183, 186, 205, 236, 250, 256, 260, 262, 269, 465, 471, 474, 493, 524, 538, 544, 548, 550, 557, 628, 725, 730, 731], 0x38070003b676cee1dc3b60000000086c00214800, 3⟩,
    ⟨[182, 185, 222, 297, 470, 473, 510, 634, 639, 726], 0x180300600c00000000000000000000000010de1bc3700009400000, 29⟩,
    ⟨[522, 524, 550, 577, 628, 725, 730, 731], 0x380700001c03a1cc3901c0000000004e0021c000, 3⟩,
    ⟨[521, 522, 524, 550, 577, 628, 725, 729, 730, 731], 0x8740380700001c03a1cc3901c0000000004e0021c000, 3⟩,
    ⟨[521, 522, 524, 550, 577, 628, 725, 730, 731], 0x8760380700001c03a1cc3901c0000000004e0021c000, 3⟩,
    ⟨[479, 480, 728], 0x27018000000008790f21f43c8790f61e43c8780000000000009400000, 0⟩,
    ⟨[115, 138, 139, 141, 403, 426, 427, 429, 610, 725, 729, 730, 731], 0x6f60380700001c0386a0d401c0000000004e00069800, 3⟩,
    ⟨[115, 138, 139, 141, 403, 426, 427, 429, 610, 725, 730, 731], 0x87e0380700001c0386a0d401c0000000004e00069800, 3⟩,
    ⟨[125, 140, 164, 413, 428, 452, 611, 725, 730, 731], 0x380700001c0380700e01c0000000004e000a3800, 3⟩,
    ⟨[126, 127, 130, 165, 167, 296, 414, 415, 418, 453, 455, 612, 615, 638, 726, 865, 866, 869, 904, 906, 910], 0x18030061e300000000000000000000000011022044000078400000, 52⟩,
    ⟨[118, 143, 406, 431, 727, 857, 882], 0x18001bf800, 0⟩,
    ⟨[122, 128, 131, 150, 410, 416, 419, 438, 725, 730, 731, 861, 867, 870, 889], 0x380700088310620c418820000000029a00006000, 3⟩,
    ⟨[127, 130, 167, 296, 415, 418, 455, 638, 726, 866, 869, 906, 910], 0x180300600c00000000000000000000000007a8f51ea00009400000, 52⟩,
    ⟨[124, 127, 130, 147, 167, 296, 412, 415, 418, 435, 455, 612, 615, 638, 726, 863, 866, 869, 886, 906, 910], 0x18030061e3000000000000000000000000110a2144200078400000, 52⟩,
    ⟨[125, 140, 164, 413, 428, 452, 611, 864, 879, 903], 0x221800, 0⟩,
    ⟨[726, 789, 803, 804, 806, 808, 813, 820, 1051, 1065, 1066, 1068, 1070, 1075, 1082, 1085, 1089], 0x1911622c450000000000000000000000000e15c2b8500111000000, 53⟩,
    ⟨[725, 730, 731, 795, 801, 802, 1057, 1063, 1064], 0xe0dc2800706e15c1b857060000000004e001c1000, 3⟩,
    ⟨[725, 730, 731, 791, 801, 802, 1053, 1063, 1064], 0xe0e23000707119c1c467060000000004e001c1000, 3⟩,
    ⟨[725, 730, 731, 790, 801, 802, 1052, 1063, 1064], 0xe0dc2000706e11c1b847060000000004e001c1000, 3⟩,
    ⟨[727, 807, 1037], 0x1800223800, 0⟩,
    ⟨[726, 789, 805, 809, 813, 820, 1019, 1035, 1039, 1043, 1050, 1084, 1089], 0x1911e23c470000000000000000000000000b21642c800112000000, 47⟩,
    ⟨[725, 730, 731, 792, 801, 802, 1022, 1031, 1032], 0x11240700089203a2480e8920000000004e00162800, 3⟩,
    ⟨[726, 789, 803, 804, 806, 808, 813, 820, 1019, 1033, 1034, 1036, 1038, 1043, 1050, 1051, 1065, 1066, 1068, 1070, 1075, 1082, 1084, 1085, 1089], 0x1912e25c4b0000000000000000000000000e31c638c00112800000, 54⟩,
    ⟨[725, 730, 731, 795, 801, 802, 1025, 1031, 1032, 1057, 1063, 1064], 0xe29c6000714e31c538c7140000000004e001c4800, 3⟩,
    ⟨[725, 730, 731, 791, 801, 802, 1021, 1031, 1032, 1053, 1063, 1064], 0xe2a26000715131c544c7140000000004e001c4800, 3⟩,
    ⟨[725, 730, 731, 790, 801, 802, 1020, 1031, 1032, 1052, 1063, 1064], 0xe29c5800714e2dc538b7140000000004e001c4800, 3⟩,
    ⟨[614], 0xe45c8b9100000000000, 0⟩,
    ⟨[116, 117, 120, 121, 142, 144, 149, 167, 296, 404, 405, 408, 409, 430, 432, 437, 455, 638], 0x44f000000000000000000000000113a2744e00113400000, 30⟩,
    ⟨[136, 137, 424, 425], 0x8a114228c508a1146284508a00000000000000000000, 0⟩,
    ⟨[119, 123, 145, 146, 407, 411, 433, 434, 611], 0x229000, 0⟩,
    ⟨[417, 423, 617], 0x8a600000000, 0⟩,
    ⟨[727, 812, 970], 0x1800167800, 0⟩,
    ⟨[403, 427, 429, 610, 725, 730, 731], 0x380700001c03a2ac5501c0000000004e0022a000, 3⟩,
    ⟨[403, 426, 427, 429, 610, 725, 729, 730, 731], 0x8ac0380700001c03a2ac5501c0000000004e0022a000, 3⟩,
    ⟨[403, 426, 427, 429, 610, 725, 730, 731], 0x8ae0380700001c03a2ac5501c0000000004e0022a000, 3⟩,
    ⟨[727, 812, 934, 970], 0x180016a000, 0⟩,
    ⟨[643, 645, 648, 726, 789, 803, 804, 806, 808, 813, 820, 1008, 1010, 1012, 1015, 1089], 0x183606c208000000000000000000000000081d03a07000f4400000, 4⟩,
    ⟨[650, 725, 730, 731, 790, 801, 802, 1006, 1013], 0x20c24800106124418491060000000004e0022c000, 3⟩,
    ⟨[650, 725, 730, 731, 795, 801, 802, 1006, 1013, 1079], 0xb11618001061e4418791060000000004e0022c000, 3⟩,
    ⟨[650, 725, 730, 731, 792, 801, 802, 1006, 1013], 0x3a0070001d00387400e1d00000000004e0022c000, 3⟩,
    ⟨[658, 725, 730, 731, 791, 801, 802, 1006, 1013], 0x20c3f8001061fc4187f1060000000004e0022c000, 3⟩,
    ⟨[658, 725, 730, 731, 795, 801, 802, 1006, 1013], 0x20c3c8001061e4418791060000000004e0022c000, 3⟩,
    ⟨[115, 129, 135, 139, 141, 151, 403, 417, 423, 427, 429, 439, 610, 642, 644, 647, 649, 725, 730, 731, 795, 801, 802, 854, 868, 874, 878, 880, 890, 1079], 0xb11618001061e505080106000000003d800104800, 3⟩,
    ⟨[115, 129, 135, 139, 141, 151, 403, 417, 423, 427, 429, 439, 610, 642, 644, 647, 649, 658, 725, 730, 731, 795, 801, 802, 854, 868, 874, 878, 880, 890, 1006, 1013, 1079], 0xb11618001061e505080106000000003d800105800, 3⟩,
    ⟨[727, 783, 812], 0x1800171000, 0⟩,
    ⟨[60, 84, 86, 348, 372, 374, 601, 652, 654, 657, 659, 725, 730, 731, 761, 772, 773, 790, 801, 802], 0x860b90004305ca2dc5a4300000000004e0022c800, 3⟩,
    ⟨[61, 62, 65, 66, 87, 89, 94, 112, 295, 349, 350, 353, 354, 375, 377, 382, 400, 637, 643, 645, 648, 726, 760, 774, 775, 777, 779, 784, 787, 789, 803, 804, 806, 808, 813, 820, 1008, 1010, 1012, 1015, 1088, 1089], 0x188510a21300000000000000000000000008490921200117000000, 43⟩,
    ⟨[725, 730, 731, 766, 772, 773, 795, 801, 802, 1079], 0x117a2e80043086d0c21b4300000000004e00110800, 3⟩,
    ⟨[64, 68, 90, 91, 352, 356, 378, 379, 602, 650, 725, 730, 731, 761, 772, 773, 790, 801, 802, 1006, 1013], 0x860b90004305c90c1724300000000004e0022f800, 3⟩,
    ⟨[64, 68, 90, 91, 352, 356, 378, 379, 602, 650, 725, 730, 731, 766, 772, 773, 795, 801, 802, 1006, 1013, 1079], 0x117a2e80043086d0c21b4300000000004e0022f800, 3⟩,
    ⟨[725, 730, 731, 761, 772, 773, 790, 801, 802, 1020, 1029, 1031, 1032, 1048], 0x1186310008c318a30c628c20000000004e00230000, 37⟩,
    ⟨[725, 730, 731, 766, 772, 773, 795, 801, 802, 1025, 1030, 1031, 1032, 1049, 1079], 0x1196320008c318e30c638c20000000004e00230000, 37⟩,
    ⟨[64, 68, 90, 91, 352, 356, 378, 379, 602, 650, 725, 730, 731, 763, 772, 773, 792, 801, 802, 1006, 1013], 0xbc4070005e20397880e5e20000000004e0022f800, 3⟩,
    ⟨[725, 730, 731, 766, 772, 773, 795, 801, 802, 1025, 1030, 1031, 1032, 1049], 0x1186318008c318e30c638c20000000004e00230000, 37⟩,
    ⟨[61, 62, 65, 66, 87, 89, 94, 349, 350, 353, 354, 375, 377, 382, 653, 655, 660, 726, 760, 774, 775, 777, 779, 784, 787, 789, 803, 804, 806, 808, 813, 820, 1008, 1010, 1012, 1015, 1088, 1089], 0x188510a21300000000000000000000000008490921200084400000, 14⟩,
    ⟨[64, 68, 90, 91, 352, 356, 378, 379, 602, 658, 725, 730, 731, 762, 772, 773, 791, 801, 802, 1006, 1013], 0x861100004308810c2204300000000004e0022f800, 3⟩,
    ⟨[64, 68, 90, 91, 352, 356, 378, 379, 602, 658, 725, 730, 731, 766, 772, 773, 795, 801, 802, 1006, 1013], 0x8610d80043086d0c21b4300000000004e0022f800, 3⟩,
    ⟨[71, 72, 75, 110, 112, 126, 127, 130, 165, 167, 295, 296, 359, 360, 363, 398, 400, 414, 415, 418, 453, 455, 603, 606, 612, 615, 637, 638, 726, 865, 866, 869, 904, 906, 910], 0x1803006468000000000000000000000000119e33c6700119800000, 55⟩,
    ⟨[63, 88, 118, 143, 351, 376, 406, 431, 727, 857, 882], 0x18001d7800, 0⟩,
    ⟨[67, 73, 76, 95, 122, 128, 131, 150, 355, 361, 364, 383, 410, 416, 419, 438, 725, 730, 731, 861, 867, 870, 889], 0x38070008d51aa3546a8d4000000008d200006000, 3⟩,
    ⟨[72, 75, 112, 127, 130, 167, 295, 296, 360, 363, 400, 415, 418, 455, 637, 638, 726, 866, 869, 906, 910], 0x180300600c00000000000000000000000011ae35c6b00009400000, 55⟩,
    ⟨[69, 72, 75, 92, 112, 124, 127, 130, 147, 167, 295, 296, 357, 360, 363, 380, 400, 412, 415, 418, 435, 455, 603, 606, 612, 615, 637, 638, 726, 863, 866, 869, 886, 906, 910], 0x180300646800000000000000000000000011b23646c00119800000, 55⟩,
    ⟨[127, 130, 167, 296, 415, 418, 455, 638, 651, 685, 686, 726, 760, 782, 785, 787, 789, 811, 814, 820, 866, 869, 906, 910, 1088, 1089], 0x18b89712e20000000000000000000000000ecdd9bb3000e7c00000, 33⟩,
    ⟨[115, 129, 135, 139, 141, 151, 403, 417, 423, 427, 429, 439, 610, 642, 644, 647, 649, 725, 730, 731, 766, 772, 773, 795, 801, 802, 854, 868, 874, 878, 880, 890], 0x8610d80043086d0d219430000000003d80010b800, 3⟩,
    ⟨[115, 139, 141, 403, 427, 429, 610, 652, 654, 657, 659, 725, 730, 731, 761, 772, 773, 790, 801, 802, 854, 878, 880], 0x860b90004305c9122234300000000004e00111000, 3⟩,
    ⟨[613, 727, 778, 807], 0x1800236800, 0⟩,
    ⟨[616, 726, 760, 776, 780, 784, 787, 789, 805, 809, 813, 820, 1088, 1089], 0x18b89712e200000000000000000000000008a91522a000b8000000, 14⟩,
    ⟨[727, 778, 807, 965], 0x1800237000, 0⟩,
    ⟨[726, 760, 776, 780, 784, 787, 789, 805, 809, 813, 820, 947, 963, 967, 971, 978, 986, 1088, 1089, 1092], 0x191ba3746e0000000000000000000000000bb576aed0011bc00000, 35⟩,
    ⟨[725, 730, 731, 763, 772, 773, 792, 801, 802, 950, 959, 960], 0x11c0070008e003a3800e8e00000000004e00175000, 3⟩,
    ⟨[127, 130, 167, 296, 415, 418, 455, 605, 638, 651, 685, 686, 726, 760, 782, 785, 787, 789, 811, 814, 820, 866, 869, 906, 910, 1088, 1089], 0x18b89712e20000000000000000000000000ef9df3be000e7c00000, 33⟩,
    ⟨[61, 62, 65, 66, 87, 89, 94, 112, 295, 349, 350, 353, 354, 375, 377, 382, 400, 637, 653, 655, 660, 726, 760, 774, 775, 777, 779, 784, 787, 789, 803, 804, 806, 808, 813, 820, 1008, 1010, 1012, 1015, 1088, 1089], 0x188510a21300000000000000000000000008490921200084400000, 43⟩,
    ⟨[81, 82, 132, 133, 369, 370, 420, 421, 728, 871, 872], 0x27018000000004b296592c6b4b31c52ca594b20000000000009400000, 0⟩,
    ⟨[115, 129, 135, 139, 141, 151, 403, 417, 423, 427, 429, 439, 610, 642, 644, 647, 649, 725, 730, 731, 766, 772, 773, 795, 801, 802, 854, 868, 874, 878, 880, 890, 1079], 0x117a2e80043086d0d219430000000003d80010b800, 3⟩,
    ⟨[64, 68, 90, 91, 115, 129, 135, 139, 141, 151, 352, 356, 378, 379, 403, 417, 423, 427, 429, 439, 602, 610, 642, 644, 647, 649, 658, 725, 730, 731, 766, 772, 773, 795, 801, 802, 854, 868, 874, 878, 880, 890, 1006, 1013, 1079], 0x117a2e80043086d0d219430000000003d80010f000, 3⟩,
    ⟨[115, 139, 141, 362, 368, 403, 427, 429, 608, 610, 652, 654, 657, 659, 725, 730, 731, 761, 772, 773, 790, 801, 802, 854, 878, 880], 0x860b90004305c9122234300000000067e00111000, 3⟩,
    ⟨[651, 685, 686, 726, 760, 782, 785, 787, 789, 811, 814, 820, 1088, 1089], 0x18b89712e200000000000000000000000005dcbb977000e7c00000, 27⟩,
    ⟨[642, 644, 647, 649, 725, 730, 731, 766, 772, 773, 795, 801, 802], 0x8610d80043086e3a4734300000000004e00239000, 3⟩,
    ⟨[642, 644, 647, 649, 725, 730, 731, 762, 772, 773, 791, 801, 802], 0x861100004308823a4754300000000004e00239000, 3⟩,
    ⟨[646, 727, 807, 857, 882], 0x1800116000, 0⟩,
    ⟨[656, 727, 807, 857, 882], 0x1800116000, 0⟩,
    ⟨[641, 652, 654, 657, 659, 725, 730, 731, 790, 801, 802, 861, 867, 870, 889, 1005, 1018, 1077, 1078], 0x7b4248008ec8ba3ba318ec00000000136000b2000, 3⟩,
    ⟨[118, 143, 406, 431, 727, 807, 857, 882], 0x180023c000, 0⟩,
    ⟨[122, 128, 131, 150, 410, 416, 419, 438, 725, 730, 731, 790, 801, 802, 861, 867, 870, 889, 1011, 1016, 1017, 1045, 1046], 0x540248008f31ea3cc7a8f20000000029a00041000, 3⟩,
    ⟨[127, 130, 167, 296, 415, 418, 455, 638, 726, 789, 805, 809, 813, 820, 866, 869, 906, 910, 1009, 1089], 0x1854ca995300000000000000000000000011ee3dc7b00054400000, 36⟩,
    ⟨[124, 127, 130, 147, 167, 296, 412, 415, 418, 435, 455, 612, 615, 638, 726, 789, 803, 804, 806, 808, 813, 820, 863, 866, 869, 886, 906, 910, 1007, 1014, 1089], 0x183a87515c00000000000000000000000011f23e47c00056800000, 36⟩,
    ⟨[652, 654, 657, 659, 725, 730, 731, 790, 801, 802, 861, 867, 870, 889, 1005, 1018, 1077, 1078], 0x7b4248008fa8ee3f2398fa00000000136000b2000, 3⟩,
    ⟨[727, 778, 807, 857, 882], 0x180023f800, 0⟩,
    ⟨[725, 730, 731, 761, 772, 773, 790, 801, 802, 861, 867, 870, 889], 0x860b900090090a402429000000000013600110800, 3⟩,
    ⟨[726, 760, 776, 780, 784, 787, 789, 805, 809, 813, 820, 866, 869, 906, 910, 1088, 1089], 0x18b89712e2000000000000000000000000120640c81000b8000000, 12⟩,
    ⟨[726, 760, 774, 775, 777, 779, 784, 787, 789, 803, 804, 806, 808, 813, 820, 863, 866, 869, 886, 906, 910, 1088, 1089], 0x18bcd79af3000000000000000000000000091122244000bc800000, 12⟩,
    ⟨[604, 727, 778, 807, 857, 882], 0x1800241000, 0⟩,
    ⟨[60, 74, 80, 84, 86, 93, 348, 362, 368, 372, 374, 381, 601, 652, 654, 657, 659, 725, 730, 731, 761, 772, 773, 790, 801, 802, 861, 867, 870, 889, 1005, 1018, 1077, 1078], 0xe88b900090690a42240906000000004f4001dd000, 3⟩,
    ⟨[607, 726, 760, 776, 780, 784, 787, 789, 805, 809, 813, 820, 866, 869, 906, 910, 1088, 1089], 0x18b89712e2000000000000000000000000121642c85000b8000000, 12⟩,
    ⟨[646, 727, 807], 0x1800122800, 0⟩,
    ⟨[854, 868, 874, 878, 880, 905], 0x2444880000000000090e00243000, 0⟩,
    ⟨[726, 1051, 1065, 1066, 1068, 1070, 1075, 1082, 1085], 0x1922a4548a0000000000000000000000000f59eb3d600122400000, 56⟩,
    ⟨[725, 730, 731, 1057, 1063, 1064], 0xf51eb0007a8f59ea3d67a80000000004e001e9800, 3⟩,
    ⟨[725, 730, 731, 1053, 1063, 1064], 0xf52458007a922dea48b7a80000000004e001e9800, 3⟩,
    ⟨[725, 730, 731, 1052, 1063, 1064], 0xf51ea8007a8f55ea3d57a80000000004e001e9800, 3⟩,
    ⟨[652, 654, 657, 659, 725, 730, 731, 1005, 1018, 1077, 1078], 0x92c0700049603a462514960000000004e0004f800, 3⟩,
    ⟨[727, 1037], 0x1800246800, 0⟩,
    ⟨[726, 1019, 1035, 1039, 1043, 1050, 1084], 0x1923646c8d0000000000000000000000000c6d8db1b00123800000, 48⟩,
    ⟨[725, 730, 731, 1022, 1031, 1032], 0x123c0700091e03a4780e91e0000000004e0018c000, 3⟩,
    ⟨[726, 1019, 1033, 1034, 1036, 1038, 1043, 1050, 1051, 1065, 1066, 1068, 1070, 1075, 1082, 1084, 1085], 0x1924648c910000000000000000000000000f79ef3de00124000000, 57⟩,
    ⟨[725, 730, 731, 1025, 1031, 1032, 1057, 1063, 1064], 0xf71ef0007b8f79ee3de7b80000000004e001ed800, 3⟩,
    ⟨[725, 730, 731, 1021, 1031, 1032, 1053, 1063, 1064], 0xf72490007b9249ee4927b80000000004e001ed800, 3⟩,
    ⟨[725, 730, 731, 1020, 1031, 1032, 1052, 1063, 1064], 0xf71ee8007b8f75ee3dd7b80000000004e001ed800, 3⟩,
    ⟨[642, 644, 647, 649, 725, 730, 731], 0x380700001c03a4a49401c0000000004e00249800, 3⟩,
    ⟨[67, 73, 76, 95, 355, 361, 364, 383, 641, 725, 730, 731, 761, 772, 773], 0x4785400092b25a4ac9692a0000000033c00093000, 3⟩,
    ⟨[72, 75, 112, 295, 360, 363, 400, 637, 651, 685, 686, 726, 760, 776, 780, 784, 787, 1088], 0x18690d21a4000000000000000000000000095d2ba5700068800000, 22⟩,
    ⟨[69, 72, 75, 92, 112, 295, 357, 360, 363, 380, 400, 603, 606, 637, 651, 685, 686, 726, 760, 774, 775, 777, 779, 784, 787, 1088], 0x186b8d73eb000000000000000000000000125e4bc97000fa400000, 22⟩,
    ⟨[71, 72, 75, 110, 112, 295, 359, 360, 363, 398, 400, 603, 606, 637, 726], 0x180300633500000000000000000000000012624c498000ccc00000, 41⟩,
    ⟨[70, 85, 109, 358, 373, 397, 602], 0x24c800, 0⟩,
    ⟨[726, 760, 774, 775, 777, 779, 784, 787, 1051, 1065, 1066, 1068, 1070, 1075, 1082, 1085, 1088], 0x1926e4dc9b0000000000000000000000000fa1f43e800126800000, 58⟩,
    ⟨[725, 730, 731, 766, 772, 773, 1057, 1063, 1064], 0xf99f40007ccfa1f33e87cc0000000004e001f2800, 3⟩,
    ⟨[725, 730, 731, 762, 772, 773, 1053, 1063, 1064], 0xf9a4e0007cd271f349c7cc0000000004e001f2800, 3⟩,
    ⟨[725, 730, 731, 761, 772, 773, 1052, 1063, 1064], 0xf99f38007ccf9df33e77cc0000000004e001f2800, 3⟩,
    ⟨[604, 727, 778], 0x180024e800, 0⟩,
    ⟨[60, 74, 80, 84, 86, 93, 348, 362, 368, 372, 374, 381, 601, 652, 654, 657, 659, 725, 730, 731, 761, 772, 773, 1005, 1018, 1077, 1078], 0x970540004b82a24f2644b8000000004b60013c800, 3⟩,
    ⟨[607, 726, 760, 776, 780, 784, 787, 1088], 0x18690d21a4000000000000000000000000127e4fc9f00068800000, 11⟩,
    ⟨[727, 778, 1037], 0x1800250000, 0⟩,
    ⟨[726, 760, 776, 780, 784, 787, 1019, 1035, 1039, 1043, 1050, 1084, 1088], 0x19282504a00000000000000000000000000cb19632c00128400000, 49⟩,
    ⟨[725, 730, 731, 763, 772, 773, 1022, 1031, 1032], 0x12880700094403a5100e9440000000004e00194800, 3⟩,
    ⟨[726, 760, 774, 775, 777, 779, 784, 787, 1019, 1033, 1034, 1036, 1038, 1043, 1050, 1051, 1065, 1066, 1068, 1070, 1075, 1082, 1084, 1085, 1088], 0x19292524a40000000000000000000000000fc9f93f200128c00000, 59⟩,
    ⟨[725, 730, 731, 766, 772, 773, 1025, 1031, 1032, 1057, 1063, 1064], 0xfc1f90007e0fc9f83f27e00000000004e001f7800, 3⟩,
    ⟨[725, 730, 731, 762, 772, 773, 1021, 1031, 1032, 1053, 1063, 1064], 0xfc2528007e1295f84a57e00000000004e001f7800, 3⟩,
    ⟨[725, 730, 731, 761, 772, 773, 1020, 1031, 1032, 1052, 1063, 1064], 0xfc1f88007e0fc5f83f17e00000000004e001f7800, 3⟩,
    ⟨[651, 685, 686, 726, 760, 782, 785, 787, 1088], 0x18690d21a40000000000000000000000000694d29a500095800000, 23⟩,
    ⟨[642, 644, 647, 649, 725, 730, 731, 766, 772, 773], 0x4785680023c2b6544a723c0000000004e00253000, 3⟩,
    ⟨[642, 644, 647, 649, 725, 730, 731, 762, 772, 773], 0x4789280023c496544a923c0000000004e00253000, 3⟩,
    ⟨[61, 62, 65, 66, 87, 89, 94, 112, 295, 349, 350, 353, 354, 375, 377, 382, 400, 637, 726], 0x180300626b00000000000000000000000009a93526a0009a400000, 41⟩,
    ⟨[605, 726], 0x180300600c0000000000000000000000000fe1fc3f800009400000, 0⟩,
    ⟨[362, 368, 608, 725, 730, 731], 0x380700001c0380700e01c0000000067e00006000, 3⟩,
    ⟨[61, 62, 65, 66, 87, 89, 94, 112, 295, 349, 350, 353, 354, 375, 377, 382, 400, 637, 726, 855, 856, 859, 860, 881, 883, 888, 906, 910], 0x180300627000000000000000000000000009bd37a6f0009b800000, 42⟩,
    ⟨[81, 82, 369, 370, 728, 875, 876], 0x2701800000000672ce655b396732a99cb396720000000000009400000, 0⟩,
    ⟨[79, 367, 725, 729, 730, 731, 873], 0x7fa0380700001c0380700e01c0000000004e00006000, 3⟩,
    ⟨[727, 783, 970], 0x180019d800, 0⟩,
    ⟨[70, 85, 109, 358, 373, 397, 602, 725, 730, 731, 864, 879, 903], 0x380700001c0380700e01c0000000004e00136800, 3⟩,
    ⟨[348, 372, 374, 601, 725, 730, 731], 0x380700001c0393fa7f01c0000000004e0013f000, 3⟩,
    ⟨[348, 371, 372, 374, 601, 725, 729, 730, 731], 0x9580380700001c0393fa7f01c0000000004e0013f000, 3⟩,
    ⟨[348, 371, 372, 374, 601, 725, 730, 731], 0x95a0380700001c0393fa7f01c0000000004e0013f000, 3⟩,
    ⟨[365, 366, 728], 0x270180000000001c038073fe01d2b80700e01c0000000000009400000, 0⟩,
    ⟨[348, 362, 368, 372, 374, 384, 601, 725, 730, 731], 0x380700001c0393fa7f01c0000000067e00257800, 3⟩,
    ⟨[348, 362, 368, 372, 374, 381, 601, 725, 730, 731], 0x380700001c0393fa7f01c0000000067e00257800, 3⟩,
    ⟨[348, 362, 368, 372, 374, 399, 601, 725, 730, 731], 0x380700001c0393fa7f01c0000000067e00257800, 3⟩,
    ⟨[726, 821, 835, 836, 838, 840, 845, 853, 1051, 1065, 1066, 1068, 1070, 1075, 1082, 1085, 1090], 0x192c658cb10000000000000000000000001022044080012c000000, 53⟩,
    ⟨[725, 730, 731, 827, 833, 834, 1057, 1063, 1064], 0x101a0400080d0220340880c0000000004e00202800, 3⟩,
    ⟨[725, 730, 731, 823, 833, 834, 1053, 1063, 1064], 0x101a5900080d2ca034b280c0000000004e00202800, 3⟩,
    ⟨[725, 730, 731, 822, 833, 834, 1052, 1063, 1064], 0x101a0380080d01e0340780c0000000004e00202800, 3⟩,
    ⟨[652, 654, 657, 659, 725, 730, 731, 822, 833, 834, 1005, 1018, 1077, 1078], 0xa080d00050406a59a895040000000004e0005c000, 3⟩,
    ⟨[727, 839, 1037], 0x180025a000, 0⟩,
    ⟨[726, 821, 837, 841, 845, 853, 1019, 1035, 1039, 1043, 1050, 1084, 1090], 0x192d25a4b40000000000000000000000000d31a634c0012d400000, 47⟩,
    ⟨[725, 730, 731, 824, 833, 834, 1022, 1031, 1032], 0x12d80700096c03a5b00e96c0000000004e001a4800, 3⟩,
    ⟨[726, 821, 835, 836, 838, 840, 845, 853, 1019, 1033, 1034, 1036, 1038, 1043, 1050, 1051, 1065, 1066, 1068, 1070, 1075, 1082, 1084, 1085, 1090], 0x192e25c4b80000000000000000000000001042084100012dc00000, 54⟩,
    ⟨[725, 730, 731, 827, 833, 834, 1025, 1031, 1032, 1057, 1063, 1064], 0x103a0800081d0420741081c0000000004e00206800, 3⟩,
    ⟨[725, 730, 731, 823, 833, 834, 1021, 1031, 1032, 1053, 1063, 1064], 0x103a5c80081d2e6074b981c0000000004e00206800, 3⟩,
    ⟨[725, 730, 731, 822, 833, 834, 1020, 1031, 1032, 1052, 1063, 1064], 0x103a0780081d03e0740f81c0000000004e00206800, 3⟩,
    ⟨[642, 644, 647, 649, 725, 730, 731, 827, 833, 834], 0x6c1c0000360e25e4bb0360000000004e0025d000, 3⟩,
    ⟨[642, 644, 647, 649, 725, 730, 731, 823, 833, 834], 0x6c1d8000360ee5e4bd0360000000004e0025d000, 3⟩,
    ⟨[67, 73, 76, 95, 355, 361, 364, 383, 641, 725, 730, 731, 761, 772, 773, 822, 833, 834], 0x4e06080097d2fe5f4bf97c0000000033c000a0000, 3⟩,
    ⟨[72, 75, 112, 295, 360, 363, 400, 637, 651, 685, 686, 726, 760, 776, 780, 784, 787, 821, 837, 841, 845, 853, 1088, 1090], 0x18720e41c80000000000000000000000000a4548a9100071800000, 26⟩,
    ⟨[69, 72, 75, 92, 112, 295, 357, 360, 363, 380, 400, 603, 606, 637, 651, 685, 686, 726, 760, 774, 775, 777, 779, 784, 787, 821, 835, 836, 838, 840, 845, 853, 1088, 1090], 0x18734e6c1c0000000000000000000000001302604c000106800000, 26⟩,
    ⟨[726, 760, 774, 775, 777, 779, 784, 787, 821, 835, 836, 838, 840, 845, 853, 1051, 1065, 1066, 1068, 1070, 1075, 1082, 1085, 1088, 1090], 0x1930a614c200000000000000000000000010660cc1900130400000, 60⟩,
    ⟨[725, 730, 731, 766, 772, 773, 827, 833, 834, 1057, 1063, 1064], 0x105e0c80082f0660bc1982e0000000004e0020b000, 3⟩,
    ⟨[725, 730, 731, 762, 772, 773, 823, 833, 834, 1053, 1063, 1064], 0x105e6180082f30e0bcc382e0000000004e0020b000, 3⟩,
    ⟨[725, 730, 731, 761, 772, 773, 822, 833, 834, 1052, 1063, 1064], 0x105e0c00082f0620bc1882e0000000004e0020b000, 3⟩,
    ⟨[604, 727, 778, 839], 0x1800262000, 0⟩,
    ⟨[60, 74, 80, 84, 86, 93, 348, 362, 368, 372, 374, 381, 601, 652, 654, 657, 659, 725, 730, 731, 761, 772, 773, 822, 833, 834, 1005, 1018, 1077, 1078], 0xa4c6080052630662a9b526000000004b600153800, 3⟩,
    ⟨[607, 726, 760, 776, 780, 784, 787, 821, 837, 841, 845, 853, 1088, 1090], 0x18720e41c8000000000000000000000000131a634c600071800000, 14⟩,
    ⟨[727, 778, 839, 1037], 0x1800263800, 0⟩,
    ⟨[726, 760, 776, 780, 784, 787, 821, 837, 841, 845, 853, 1019, 1035, 1039, 1043, 1050, 1084, 1088, 1090], 0x1931e63cc70000000000000000000000000d6dadb5b00132000000, 51⟩,
    ⟨[725, 730, 731, 763, 772, 773, 824, 833, 834, 1022, 1031, 1032], 0x13240700099203a6480e9920000000004e001ac000, 3⟩,
    ⟨[726, 760, 774, 775, 777, 779, 784, 787, 821, 835, 836, 838, 840, 845, 853, 1019, 1033, 1034, 1036, 1038, 1043, 1050, 1051, 1065, 1066, 1068, 1070, 1075, 1082, 1084, 1085, 1088, 1090], 0x1932e65ccb000000000000000000000000108e11c2300132800000, 61⟩,
    ⟨[725, 730, 731, 766, 772, 773, 827, 833, 834, 1025, 1031, 1032, 1057, 1063, 1064], 0x10861180084308e10c238420000000004e00210000, 3⟩,
    ⟨[725, 730, 731, 762, 772, 773, 823, 833, 834, 1021, 1031, 1032, 1053, 1063, 1064], 0x10866600084333210ccc8420000000004e00210000, 3⟩,
    ⟨[725, 730, 731, 761, 772, 773, 822, 833, 834, 1020, 1031, 1032, 1052, 1063, 1064], 0x10861100084308a10c228420000000004e00210000, 3⟩,
    ⟨[651, 685, 686, 726, 760, 782, 785, 787, 821, 843, 846, 853, 1088, 1090], 0x18720e41c80000000000000000000000000724e49c9000a4000000, 27⟩,
    ⟨[642, 644, 647, 649, 725, 730, 731, 766, 772, 773, 827, 833, 834], 0x4e06300027031a67cce2700000000004e00266800, 3⟩,
    ⟨[642, 644, 647, 649, 725, 730, 731, 762, 772, 773, 823, 833, 834], 0x4e09f8002704fe67cd02700000000004e00266800, 3⟩,
    ⟨[727, 783, 844, 970], 0x18001b0800, 0⟩,
    ⟨[255, 543, 725, 729, 730, 731], 0x9a20380700001c0380700e01c0000000004e00006000, 3⟩,
    ⟨[237, 238, 241, 242, 263, 265, 270, 288, 292, 298, 525, 526, 529, 530, 551, 553, 558, 576, 580, 640, 726], 0x18030062ad0000000000000000000000000ab1562ac000aac00000, 44⟩,
    ⟨[257, 258, 545, 546, 728], 0x27018000000006ccd9a69b666cd349b33666cc0000000000009400000, 0⟩,
    ⟨[245, 248, 251, 268, 288, 292, 298, 533, 536, 539, 556, 576, 580, 630, 633, 640, 726], 0x18030064d600000000000000000000000013566acd500135000000, 44⟩,
    ⟨[181, 182, 185, 220, 222, 247, 248, 251, 286, 288, 292, 297, 298, 469, 470, 473, 508, 510, 535, 536, 539, 574, 576, 580, 621, 624, 630, 633, 639, 640, 726], 0x18030064d900000000000000000000000013626c4d800135c00000, 45⟩,
    ⟨[247, 248, 251, 286, 288, 292, 298, 535, 536, 539, 574, 576, 580, 630, 633, 640], 0x4dc000000000000000000000000136e6dcdb00136800000, 44⟩,
    ⟨[173, 198, 239, 264, 461, 486, 527, 552, 727], 0x1800218000, 0⟩,
    ⟨[177, 183, 186, 205, 243, 249, 252, 271, 465, 471, 474, 493, 531, 537, 540, 559, 725, 730, 731], 0x38070009bd37a6f4de9bc000000009ba00006000, 3⟩,
    ⟨[182, 185, 222, 248, 251, 288, 292, 297, 298, 470, 473, 510, 536, 539, 576, 580, 639, 640, 726], 0x180300600c000000000000000000000000137e6fcdf00009400000, 45⟩,
    ⟨[179, 182, 185, 202, 222, 245, 248, 251, 268, 288, 292, 297, 298, 467, 470, 473, 490, 510, 533, 536, 539, 556, 576, 580, 621, 624, 630, 633, 639, 640, 726], 0x18030064d90000000000000000000000001382704e000135c00000, 45⟩,
    ⟨[187, 188, 475, 476, 728], 0x270180000000001c0380736f01d3840700e01c0000000000009400000, 0⟩,
    ⟨[180, 195, 219, 468, 483, 507, 620, 725, 730, 731], 0x380700001c0380700e01c0000000004e00271000, 3⟩,
    ⟨[180, 195, 219, 468, 483, 507, 620], 0x271800, 0⟩,
    ⟨[182, 185, 222, 297, 470, 473, 510, 632, 639, 726], 0x180300600c00000000000000000000000010de1bc3700009400000, 29⟩,
    ⟨[187, 188, 257, 258, 475, 476, 545, 546, 728], 0x27018000000006ccd9a69cdf6cd391b33666cc0000000000009400000, 0⟩,
    ⟨[170, 194, 196, 458, 482, 484, 538, 544, 619, 635, 725, 730, 731], 0x380700001c038688d101c000000009ca0015a800, 3⟩,
    ⟨[525, 526, 529, 530, 551, 553, 558, 726], 0x18030064e8000000000000000000000000139e73ce700139800000, 0⟩,
    ⟨[528, 532, 554, 555, 629, 725, 730, 731], 0x380700001c0380700e01c0000000004e00274800, 3⟩,
    ⟨[523, 534, 573, 578, 629, 725, 730, 731], 0x380700001c0380700e01c0000000004e00275000, 3⟩,
    ⟨[523, 534, 573, 578, 629], 0x275800, 0⟩,
    ⟨[458, 482, 484, 619, 725, 730, 731], 0x380700001c03a76ced01c0000000004e00276000, 3⟩,
    ⟨[458, 481, 482, 484, 619, 725, 729, 730, 731], 0x9dc0380700001c03a76ced01c0000000004e00276000, 3⟩,
    ⟨[458, 481, 482, 484, 619, 725, 730, 731], 0x9de0380700001c03a76ced01c0000000004e00276000, 3⟩,
    ⟨[125, 140, 164, 413, 428, 452, 611], 0xfc000, 0⟩,
    ⟨[115, 129, 135, 139, 141, 166, 403, 417, 423, 427, 429, 454, 610, 725, 730, 731, 854, 868, 874, 878, 880, 905], 0x380700001c039602c001c000000003d800278000, 3⟩,
    ⟨[115, 129, 135, 139, 141, 151, 403, 417, 423, 427, 429, 439, 610, 725, 730, 731, 854, 868, 874, 878, 880, 890], 0x380700001c039602c001c000000003d800278000, 3⟩,
    ⟨[115, 129, 135, 139, 141, 148, 403, 417, 423, 427, 429, 436, 610, 725, 730, 731, 854, 868, 874, 878, 880, 887], 0x380700001c039602c001c000000003d800278000, 3⟩,
    ⟨[126, 127, 130, 165, 167, 296, 414, 415, 418, 453, 455, 612, 615, 638, 865, 866, 869, 904, 906, 910], 0x2ce00000000000000000000000013c678cf1000b3000000, 52⟩,
    ⟨[727, 807, 1069], 0x1800279000, 0⟩,
    ⟨[726, 789, 805, 809, 813, 820, 1051, 1067, 1071, 1075, 1082, 1085, 1089], 0x193ca794f20000000000000000000000000e15c2b850013cc00000, 53⟩,
    ⟨[725, 730, 731, 792, 801, 802, 1054, 1063, 1064], 0x13d0070009e803a7a00e9e80000000004e001c1000, 3⟩,
    ⟨[726, 789, 811, 814, 820, 1019, 1041, 1044, 1050, 1084, 1089], 0x1911e23c470000000000000000000000000b21642c80013d400000, 47⟩,
    ⟨[727, 810, 1040], 0x1800223800, 0⟩,
    ⟨[725, 730, 731, 793, 794, 1023, 1024], 0xb196400058cb21632c858c0000000004e00006000, 3⟩,
    ⟨[727, 807, 1037, 1069], 0x180027b000, 0⟩,
    ⟨[726, 789, 805, 809, 813, 820, 1019, 1035, 1039, 1043, 1050, 1051, 1067, 1071, 1075, 1082, 1084, 1085, 1089], 0x193da7b4f60000000000000000000000000e31c638c0013dc00000, 54⟩,
    ⟨[725, 730, 731, 792, 801, 802, 1022, 1031, 1032, 1054, 1063, 1064], 0x13e0070009f003a7c00e9f00000000004e001c4800, 3⟩,
    ⟨[118, 143, 406, 431], 0x227800, 0⟩,
    ⟨[122, 128, 131, 150, 410, 416, 419, 438], 0x9f53ea7d4fa9f4000000009f200000000, 0⟩,
    ⟨[127, 130, 167, 296, 415, 418, 455, 638], 0x11422845000000000000, 30⟩,
    ⟨[115, 139, 141, 403, 427, 429, 610], 0x1c8390000000000000000027d800, 0⟩,
    ⟨[115, 138, 139, 141, 403, 426, 427, 429, 610], 0x87e00000000000001c8390000000000000000027d800, 0⟩,
    ⟨[124, 127, 130, 147, 167, 296, 412, 415, 418, 435, 455, 612, 615, 638], 0x2ce00000000000000000000000013f27e4fc000b3000000, 30⟩,
    ⟨[424, 425], 0x9fb3f67f4fd9fb3fa7ecfd9fa0000000000000000000, 0⟩,
    ⟨[404, 405, 408, 409, 430, 432, 437, 726], 0x18030065010000000000000000000000001402805000013fc00000, 0⟩,
    ⟨[407, 411, 433, 434, 611, 725, 730, 731], 0x380700001c0380700e01c0000000004e00281000, 3⟩,
    ⟨[413, 428, 452, 611, 725, 730, 731], 0x380700001c0380700e01c0000000004e00281800, 3⟩,
    ⟨[413, 428, 452, 611], 0x282000, 0⟩,
    ⟨[651, 685, 686, 726, 789, 803, 804, 806, 808, 813, 820, 1007, 1014, 1089], 0x183a8750ea000000000000000000000000141682d050003a400000, 16⟩,
    ⟨[61, 62, 65, 66, 87, 89, 94, 349, 350, 353, 354, 375, 377, 382, 653, 655, 660, 726, 760, 774, 775, 777, 779, 784, 787, 789, 803, 804, 806, 808, 813, 820, 1088, 1089], 0x188510a507000000000000000000000000141a8350600084400000, 14⟩,
    ⟨[64, 68, 90, 91, 352, 356, 378, 379, 602, 658, 725, 730, 731, 762, 772, 773, 791, 801, 802], 0x861100004308810c2204300000000004e00284000, 3⟩,
    ⟨[64, 68, 90, 91, 352, 356, 378, 379, 602, 658, 725, 730, 731, 766, 772, 773, 795, 801, 802], 0x8610d80043086d0c21b4300000000004e00284000, 3⟩,
    ⟨[63, 88, 351, 376, 646, 727, 778, 807], 0x180016e000, 0⟩,
    ⟨[725, 730, 731, 761, 772, 773, 790, 801, 802, 1052, 1061, 1063, 1064, 1080], 0x142a85800a1542e8550ba140000000004e00284800, 46⟩,
    ⟨[725, 730, 731, 766, 772, 773, 795, 801, 802, 1057, 1062, 1063, 1064, 1081], 0x142a86000a154328550ca140000000004e00284800, 46⟩,
    ⟨[69, 72, 75, 92, 112, 295, 357, 360, 363, 380, 400, 603, 606, 637, 651, 685, 686, 726, 760, 774, 775, 777, 779, 784, 787, 789, 803, 804, 806, 808, 813, 820, 1007, 1014, 1088, 1089], 0x18bcd79d0f000000000000000000000000143a8750e00143400000, 26⟩,
    ⟨[726, 760, 774, 775, 777, 779, 784, 787, 789, 803, 804, 806, 808, 813, 820, 1019, 1033, 1034, 1036, 1038, 1043, 1050, 1084, 1088, 1089], 0x1944688d11000000000000000000000000118e31c6300144000000, 51⟩,
    ⟨[725, 730, 731, 766, 772, 773, 795, 801, 802, 1025, 1031, 1032], 0x1186318008c318e30c638c20000000004e00230000, 3⟩,
    ⟨[725, 730, 731, 762, 772, 773, 791, 801, 802, 1021, 1031, 1032], 0x1186890008c344a30d128c20000000004e00230000, 3⟩,
    ⟨[725, 730, 731, 761, 772, 773, 790, 801, 802, 1020, 1031, 1032], 0x1186310008c318a30c628c20000000004e00230000, 3⟩,
    ⟨[725, 730, 731, 761, 772, 773, 790, 801, 802, 1020, 1031, 1032, 1052, 1061, 1063, 1064, 1080], 0x14528a800a294568a515a280000000004e00289800, 46⟩,
    ⟨[725, 730, 731, 766, 772, 773, 795, 801, 802, 1025, 1031, 1032, 1057, 1062, 1063, 1064, 1081], 0x14528b000a2945a8a516a280000000004e00289800, 46⟩,
    ⟨[604, 613, 727], 0x180028b800, 0⟩,
    ⟨[60, 74, 80, 84, 86, 111, 115, 129, 135, 139, 141, 166, 348, 362, 368, 372, 374, 399, 403, 417, 423, 427, 429, 454, 601, 610, 725, 730, 731, 854, 868, 874, 878, 880, 905], 0x380700001c03972ae501c00000000a320028c000, 3⟩,
    ⟨[607, 616, 726], 0x180300600c000000000000000000000000146a8d51a00009400000, 0⟩,
    ⟨[77, 78, 132, 133, 365, 366, 420, 421, 728, 871, 872], 0x270180000000001c0380746b01d46c0700e01c0000000000009400000, 0⟩,
    ⟨[60, 74, 80, 84, 86, 96, 115, 129, 135, 139, 141, 151, 348, 362, 368, 372, 374, 384, 403, 417, 423, 427, 429, 439, 601, 610, 725, 730, 731, 854, 868, 874, 878, 880, 890], 0x380700001c03972ae501c00000000a320028c000, 3⟩,
    ⟨[60, 84, 86, 115, 139, 141, 348, 372, 374, 403, 427, 429, 601, 610, 725, 730, 731, 854, 878, 880], 0x380700001c03972ae501c0000000004e00172000, 3⟩,
    ⟨[60, 74, 80, 84, 86, 93, 115, 129, 135, 139, 141, 148, 348, 362, 368, 372, 374, 381, 403, 417, 423, 427, 429, 436, 601, 610, 725, 730, 731, 854, 868, 874, 878, 880, 887], 0x380700001c03972ae501c00000000a320028c000, 3⟩,
    ⟨[614, 726, 760, 782, 785, 787, 789, 811, 814, 820, 1088, 1089], 0x18b89712e200000000000000000000000008a91522a000e7c00000, 14⟩,
    ⟨[726, 760, 782, 785, 787, 789, 811, 814, 820, 947, 969, 972, 978, 986, 1088, 1089, 1092], 0x191ba3746e0000000000000000000000000bb576aed00147000000, 35⟩,
    ⟨[727, 781, 810, 968], 0x1800237000, 0⟩,
    ⟨[725, 730, 731, 764, 765, 793, 794, 951, 952], 0xbad768005d6bb575aed5d60000000004e00006000, 3⟩,
    ⟨[60, 83, 84, 86, 134, 348, 371, 372, 374, 422, 601, 725, 729, 730, 731, 873], 0xa3a0380700001c038d39a701c0000000004e000d3000, 3⟩,
    ⟨[643, 645, 648, 726, 760, 774, 775, 777, 779, 784, 787, 789, 803, 804, 806, 808, 813, 820, 1088, 1089], 0x188510a2140000000000000000000000000bd97b2f600147800000, 14⟩,
    ⟨[650, 725, 730, 731, 761, 772, 773, 790, 801, 802], 0x860b90004305c90c1724300000000004e0017b800, 3⟩,
    ⟨[650, 725, 730, 731, 766, 772, 773, 795, 801, 802], 0x8610d80043086d0c21b4300000000004e0017b800, 3⟩,
    ⟨[650, 725, 730, 731, 763, 772, 773, 792, 801, 802], 0xbc4070005e20397880e5e20000000004e0017b800, 3⟩,
    ⟨[642, 644, 647, 649, 725, 730, 731, 795, 801, 802, 854, 868, 874, 878, 880, 890, 1079], 0xb11618001061e57d2f91060000000021e0017c000, 3⟩,
    ⟨[642, 644, 647, 649, 658, 725, 730, 731, 795, 801, 802, 854, 868, 874, 878, 880, 890, 1006, 1013, 1079], 0xb11618001061e57d2f91060000000021e00180000, 3⟩,
    ⟨[127, 130, 167, 296, 415, 418, 455, 638, 726, 789, 811, 814, 820, 866, 869, 906, 910, 1089], 0x1854ca9953000000000000000000000000147e8fd1f0007a000000, 36⟩,
    ⟨[115, 129, 135, 139, 141, 151, 403, 417, 423, 427, 429, 439, 610, 725, 730, 731, 795, 801, 802, 854, 868, 874, 878, 880, 890, 1005, 1018, 1047, 1077, 1078], 0x7c0f78003da1e581d203da000000003d800180800, 3⟩,
    ⟨[115, 129, 135, 139, 141, 151, 403, 417, 423, 427, 429, 439, 610, 725, 730, 731, 791, 801, 802, 854, 868, 874, 878, 880, 890, 1005, 1018, 1077, 1078], 0x7b43f8003da1fd81d213da000000003d800180800, 3⟩,
    ⟨[115, 139, 141, 403, 427, 429, 610, 725, 730, 731, 790, 801, 802, 854, 878, 880, 1005], 0x20c2480010612691b021060000000004e00291000, 3⟩,
    ⟨[115, 129, 135, 139, 141, 148, 403, 417, 423, 427, 429, 436, 610, 725, 730, 731, 790, 801, 802, 854, 868, 874, 878, 880, 887, 1005, 1018, 1077, 1078], 0x7b4248003da12581b023da000000003d800180800, 3⟩,
    ⟨[725, 730, 731, 795, 801, 802, 854, 868, 874, 878, 880, 890, 1079], 0xb11618001061e4801011060000000021e00182000, 3⟩,
    ⟨[658, 725, 730, 731, 795, 801, 802, 854, 868, 874, 878, 880, 890, 1006, 1013, 1079], 0xb11618001061e4801011060000000021e00182800, 3⟩,
    ⟨[726, 760, 782, 785, 787, 789, 811, 814, 820, 866, 869, 906, 910, 1088, 1089], 0x18b89712e2000000000000000000000000120640c81000e7c00000, 12⟩,
    ⟨[725, 730, 731, 766, 772, 773, 795, 801, 802, 854, 868, 874, 878, 880, 890], 0x8610d80043086d84b084300000000021e00183800, 3⟩,
    ⟨[725, 730, 731, 761, 772, 773, 790, 801, 802, 854, 878, 880], 0x860b90004305c984b0d4300000000004e00186000, 3⟩,
    ⟨[605, 726, 760, 782, 785, 787, 789, 811, 814, 820, 866, 869, 906, 910, 1088, 1089], 0x18b89712e2000000000000000000000000121642c85000e7c00000, 12⟩,
    ⟨[725, 730, 731, 766, 772, 773, 795, 801, 802, 854, 868, 874, 878, 880, 890, 1079], 0x117a2e80043086d84b084300000000021e00183800, 3⟩,
    ⟨[64, 68, 90, 91, 352, 356, 378, 379, 602, 658, 725, 730, 731, 766, 772, 773, 795, 801, 802, 854, 868, 874, 878, 880, 890, 1006, 1013, 1079], 0x117a2e80043086d84b084300000000021e00185000, 3⟩,
    ⟨[362, 368, 608, 725, 730, 731, 761, 772, 773, 790, 801, 802, 854, 878, 880], 0x860b90004305c984b0d4300000000067e00186000, 3⟩,
    ⟨[855, 856, 859, 860, 881, 883, 888, 906, 910], 0x526000000000000000000000000149692d2500149000000, 5⟩,
    ⟨[875, 876], 0xa4f49e94527a4f4a293d27a4e0000000000000000000, 0⟩,
    ⟨[858, 862, 884, 885], 0x294800, 0⟩,
    ⟨[727, 1069], 0x1800295000, 0⟩,
    ⟨[726, 1051, 1067, 1071, 1075, 1082, 1085], 0x194aa9552a0000000000000000000000000f59eb3d60014ac00000, 56⟩,
    ⟨[725, 730, 731, 1054, 1063, 1064], 0x14b007000a5803a9600ea580000000004e001e9800, 3⟩,
    ⟨[658, 725, 730, 731, 1006, 1013, 1079], 0xc598a80001c0380700e01c0000000004e0018b800, 3⟩,
    ⟨[726, 1019, 1041, 1044, 1050, 1084], 0x1923646c8d0000000000000000000000000c6d8db1b0014b400000, 48⟩,
    ⟨[727, 1040], 0x1800246800, 0⟩,
    ⟨[725, 730, 731, 1023, 1024], 0xc658d800632c6d8cb1b6320000000004e00006000, 3⟩,
    ⟨[727, 1037, 1069], 0x1800297000, 0⟩,
    ⟨[726, 1019, 1035, 1039, 1043, 1050, 1051, 1067, 1071, 1075, 1082, 1084, 1085], 0x194ba9752e0000000000000000000000000f79ef3de0014bc00000, 57⟩,
    ⟨[725, 730, 731, 1022, 1031, 1032, 1054, 1063, 1064], 0x14c007000a6003a9800ea600000000004e001ed800, 3⟩,
    ⟨[643, 645, 648, 726], 0x1844c899130000000000000000000000000c798f31e000c5000000, 0⟩,
    ⟨[650, 725, 730, 731], 0x380700001c0380700e01c0000000004e00089800, 3⟩,
    ⟨[60, 74, 80, 84, 86, 96, 348, 362, 368, 372, 374, 384, 601, 642, 644, 647, 649, 725, 730, 731, 766, 772, 773], 0x4785680023c2b699d3223c000000004b600298800, 3⟩,
    ⟨[60, 74, 80, 84, 86, 96, 348, 362, 368, 372, 374, 384, 601, 642, 644, 647, 649, 725, 730, 731, 762, 772, 773], 0x4789280023c49699d3423c000000004b600298800, 3⟩,
    ⟨[60, 74, 80, 84, 86, 93, 348, 362, 368, 372, 374, 381, 601, 652, 654, 657, 659, 725, 730, 731, 761, 772, 773], 0x4785400023c2a190b2023c000000004b60029a800, 3⟩,
    ⟨[60, 74, 80, 84, 86, 111, 348, 362, 368, 372, 374, 399, 601, 725, 730, 731], 0x380700001c038d39a701c000000004b6001fb000, 3⟩,
    ⟨[71, 72, 75, 110, 112, 295, 359, 360, 363, 398, 400, 603, 606, 637], 0x53800000000000000000000000014de9bd370014d800000, 41⟩,
    ⟨[727, 778, 1069], 0x180029c800, 0⟩,
    ⟨[726, 760, 776, 780, 784, 787, 1051, 1067, 1071, 1075, 1082, 1085, 1088], 0x194e69cd390000000000000000000000000fa1f43e80014e800000, 58⟩,
    ⟨[725, 730, 731, 763, 772, 773, 1054, 1063, 1064], 0x14ec07000a7603a9d80ea760000000004e001f2800, 3⟩,
    ⟨[605, 726, 760, 782, 785, 787, 1088], 0x18690d21a4000000000000000000000000127e4fc9f00095800000, 11⟩,
    ⟨[64, 68, 90, 91, 352, 356, 378, 379, 602, 658, 725, 730, 731, 766, 772, 773, 1006, 1013, 1079], 0xc9d9300023c2b48f0ad23c0000000004e00194000, 3⟩,
    ⟨[362, 368, 608, 725, 730, 731, 761, 772, 773], 0x4785400023c2a08f0a823c0000000067e00093000, 3⟩,
    ⟨[726, 760, 782, 785, 787, 1019, 1041, 1044, 1050, 1084, 1088], 0x19282504a00000000000000000000000000cb19632c0014f000000, 49⟩,
    ⟨[727, 781, 1040], 0x1800250000, 0⟩,
    ⟨[725, 730, 731, 764, 765, 1023, 1024], 0xca996000654cb19532c6540000000004e00006000, 3⟩,
    ⟨[727, 778, 1037, 1069], 0x180029e800, 0⟩,
    ⟨[726, 760, 776, 780, 784, 787, 1019, 1035, 1039, 1043, 1050, 1051, 1067, 1071, 1075, 1082, 1084, 1085, 1088], 0x194f69ed3d0000000000000000000000000fc9f93f20014f800000, 59⟩,
    ⟨[725, 730, 731, 763, 772, 773, 1022, 1031, 1032, 1054, 1063, 1064], 0x14fc07000a7e03a9f80ea7e0000000004e001f7800, 3⟩,
    ⟨[643, 645, 648, 726, 760, 774, 775, 777, 779, 784, 787, 1088], 0x184648c9190000000000000000000000000cc19833000150000000, 11⟩,
    ⟨[650, 725, 730, 731, 761, 772, 773], 0x4785400023c2a08f0a823c0000000004e00198800, 3⟩,
    ⟨[650, 725, 730, 731, 766, 772, 773], 0x4785680023c2b48f0ad23c0000000004e00198800, 3⟩,
    ⟨[650, 725, 730, 731, 763, 772, 773], 0x6dc0700036e038db80e36e0000000004e00198800, 3⟩,
    ⟨[60, 83, 84, 86, 348, 371, 372, 374, 601, 725, 729, 730, 731, 854, 877, 878, 880], 0x7fa0380700001c038d51aa01c0000000004e000d4800, 3⟩,
    ⟨[60, 83, 84, 86, 348, 371, 372, 374, 601, 725, 730, 731, 854, 877, 878, 880], 0xa820380700001c038d51aa01c0000000004e000d4800, 3⟩,
    ⟨[358, 373, 397, 602, 725, 730, 731], 0x380700001c0380700e01c0000000004e001a2000, 3⟩,
    ⟨[358, 373, 397, 602], 0x2a1000, 0⟩,
    ⟨[367, 725, 729, 730, 731], 0x9580380700001c0380700e01c0000000004e00006000, 3⟩,
    ⟨[349, 350, 353, 354, 375, 377, 382, 400, 637, 726], 0x18030063420000000000000000000000000d05a0b41000d0000000, 50⟩,
    ⟨[727, 839, 1069], 0x18002a1800, 0⟩,
    ⟨[726, 821, 837, 841, 845, 853, 1051, 1067, 1071, 1075, 1082, 1085, 1090], 0x1950ea1d4300000000000000000000000010220440800151000000, 53⟩,
    ⟨[725, 730, 731, 824, 833, 834, 1054, 1063, 1064], 0x151407000a8a03aa280ea8a0000000004e00202800, 3⟩,
    ⟨[658, 725, 730, 731, 827, 833, 834, 1006, 1013, 1079], 0xd1da30000360e00d8380360000000004e001a4000, 3⟩,
    ⟨[726, 821, 843, 846, 853, 1019, 1041, 1044, 1050, 1084, 1090], 0x192d25a4b40000000000000000000000000d31a634c00151800000, 47⟩,
    ⟨[727, 842, 1040], 0x180025a000, 0⟩,
    ⟨[725, 730, 731, 825, 826, 1023, 1024], 0xd29a6000694d31a534c6940000000004e00006000, 3⟩,
    ⟨[727, 839, 1037, 1069], 0x18002a3800, 0⟩,
    ⟨[726, 821, 837, 841, 845, 853, 1019, 1035, 1039, 1043, 1050, 1051, 1067, 1071, 1075, 1082, 1084, 1085, 1090], 0x1951ea3d4700000000000000000000000010420841000152000000, 54⟩,
    ⟨[725, 730, 731, 824, 833, 834, 1022, 1031, 1032, 1054, 1063, 1064], 0x152407000a9203aa480ea920000000004e00206800, 3⟩,
    ⟨[643, 645, 648, 726, 821, 835, 836, 838, 840, 845, 853, 1090], 0x184c0981300000000000000000000000000d3da7b4f000d1400000, 4⟩,
    ⟨[650, 725, 730, 731, 822, 833, 834], 0x6c0d0000360680d81a0360000000004e001a8000, 3⟩,
    ⟨[650, 725, 730, 731, 827, 833, 834], 0x6c1c0000360e00d8380360000000004e001a8000, 3⟩,
    ⟨[650, 725, 730, 731, 824, 833, 834], 0x194070000ca0383280e0ca0000000004e001a8000, 3⟩,
    ⟨[60, 74, 80, 84, 86, 96, 348, 362, 368, 372, 374, 384, 601, 642, 644, 647, 649, 725, 730, 731, 766, 772, 773, 827, 833, 834], 0x4e06300027031aa654b270000000004b6002a5000, 3⟩,
    ⟨[60, 74, 80, 84, 86, 96, 348, 362, 368, 372, 374, 384, 601, 642, 644, 647, 649, 725, 730, 731, 762, 772, 773, 823, 833, 834], 0x4e09f8002704fea654d270000000004b6002a5000, 3⟩,
    ⟨[60, 74, 80, 84, 86, 93, 348, 362, 368, 372, 374, 381, 601, 652, 654, 657, 659, 725, 730, 731, 761, 772, 773, 822, 833, 834], 0x4e060800270305a9b52270000000004b6002a7000, 3⟩,
    ⟨[727, 778, 839, 1069], 0x18002a7800, 0⟩,
    ⟨[726, 760, 776, 780, 784, 787, 821, 837, 841, 845, 853, 1051, 1067, 1071, 1075, 1082, 1085, 1088, 1090], 0x1953ea7d4f00000000000000000000000010660cc1900154000000, 60⟩,
    ⟨[725, 730, 731, 763, 772, 773, 824, 833, 834, 1054, 1063, 1064], 0x154407000aa203aa880eaa20000000004e0020b000, 3⟩,
    ⟨[605, 726, 760, 782, 785, 787, 821, 843, 846, 853, 1088, 1090], 0x18720e41c8000000000000000000000000131a634c6000a4000000, 14⟩,
    ⟨[64, 68, 90, 91, 352, 356, 378, 379, 602, 658, 725, 730, 731, 766, 772, 773, 827, 833, 834, 1006, 1013, 1079], 0xd59aa8002703189c0c62700000000004e001ab800, 3⟩,
    ⟨[362, 368, 608, 725, 730, 731, 761, 772, 773, 822, 833, 834], 0x4e0608002703049c0c12700000000067e000a0000, 3⟩,
    ⟨[726, 760, 782, 785, 787, 821, 843, 846, 853, 1019, 1041, 1044, 1050, 1084, 1088, 1090], 0x1931e63cc70000000000000000000000000d6dadb5b00154800000, 51⟩,
    ⟨[727, 781, 842, 1040], 0x1800263800, 0⟩,
    ⟨[725, 730, 731, 764, 765, 825, 826, 1023, 1024], 0xd65ad8006b2d6dacb5b6b20000000004e00006000, 3⟩,
    ⟨[727, 778, 839, 1037, 1069], 0x18002a9800, 0⟩,
    ⟨[726, 760, 776, 780, 784, 787, 821, 837, 841, 845, 853, 1019, 1035, 1039, 1043, 1050, 1051, 1067, 1071, 1075, 1082, 1084, 1085, 1088, 1090], 0x1954ea9d53000000000000000000000000108e11c2300155000000, 61⟩,
    ⟨[725, 730, 731, 763, 772, 773, 824, 833, 834, 1022, 1031, 1032, 1054, 1063, 1064], 0x155407000aaa03aaa80eaaa0000000004e00210000, 3⟩,
    ⟨[643, 645, 648, 726, 760, 774, 775, 777, 779, 784, 787, 821, 835, 836, 838, 840, 845, 853, 1088, 1090], 0x184d89b1360000000000000000000000000d7dafb5f00155800000, 14⟩,
    ⟨[650, 725, 730, 731, 761, 772, 773, 822, 833, 834], 0x4e0608002703049c0c12700000000004e001b0000, 3⟩,
    ⟨[650, 725, 730, 731, 766, 772, 773, 827, 833, 834], 0x4e0630002703189c0c62700000000004e001b0000, 3⟩,
    ⟨[650, 725, 730, 731, 763, 772, 773, 824, 833, 834], 0x758070003ac038eb00e3ac0000000004e001b0000, 3⟩,
    ⟨[246, 261, 285, 534, 549, 573, 629, 725, 730, 731], 0x380700001c0380700e01c0000000004e002ab800, 3⟩,
    ⟨[236, 259, 260, 262, 524, 547, 548, 550, 628, 725, 729, 730, 731], 0x9a20380700001c039b3b6701c0000000004e000ec800, 3⟩,
    ⟨[236, 259, 260, 262, 524, 547, 548, 550, 628, 725, 730, 731], 0xab00380700001c039b3b6701c0000000004e000ec800, 3⟩,
    ⟨[631, 727], 0x18002ac800, 0⟩,
    ⟨[236, 250, 256, 260, 262, 269, 524, 538, 544, 548, 550, 557, 628, 725, 730, 731], 0x380700001c039b3b6701c0000000085400214800, 3⟩,
    ⟨[634, 726], 0x180300600c000000000000000000000000156aad55a00009400000, 0⟩,
    ⟨[622, 631, 727], 0x18002ad800, 0⟩,
    ⟨[170, 184, 190, 194, 196, 221, 236, 250, 256, 260, 262, 287, 458, 472, 478, 482, 484, 509, 524, 538, 544, 548, 550, 575, 619, 628, 725, 730, 731], 0x380700001c039b5b6b01c00000000aba002ae000, 3⟩,
    ⟨[625, 634, 726], 0x180300600c000000000000000000000000157aaf55e00009400000, 0⟩,
    ⟨[631], 0x2af800, 0⟩,
    ⟨[236, 250, 256, 260, 262, 287, 524, 538, 544, 548, 550, 575, 628], 0x2b156200000000000ac2002b0000, 0⟩,
    ⟨[634], 0x158eb1d6300000000000, 0⟩,
    ⟨[187, 188, 253, 254, 475, 476, 541, 542, 728], 0x270180000000001c038074df01d5900700e01c0000000000009400000, 0⟩,
    ⟨[170, 184, 190, 194, 196, 206, 236, 250, 256, 260, 262, 272, 458, 472, 478, 482, 484, 494, 524, 538, 544, 548, 550, 560, 619, 628, 725, 730, 731], 0x380700001c039b5b6b01c00000000aba002ae000, 3⟩,
    ⟨[170, 194, 196, 236, 260, 262, 458, 482, 484, 524, 548, 550, 619, 628, 725, 730, 731], 0x380700001c039b5b6b01c0000000004e001b5000, 3⟩,
    ⟨[170, 184, 190, 194, 196, 203, 236, 250, 256, 260, 262, 269, 458, 472, 478, 482, 484, 491, 524, 538, 544, 548, 550, 557, 619, 628, 725, 730, 731], 0x380700001c039b5b6b01c00000000aba002ae000, 3⟩,
    ⟨[189, 477, 725, 729, 730, 731], 0x8660380700001c0380700e01c0000000004e00006000, 3⟩,
    ⟨[181, 182, 185, 220, 222, 297, 469, 470, 473, 508, 510, 621, 624, 639, 726], 0x18030061e00000000000000000000000001596b2d6500077800000, 29⟩,
    ⟨[181, 182, 185, 220, 222, 297, 469, 470, 473, 508, 510, 621, 624, 639], 0x568000000000000000000000000159eb3d6700159800000, 29⟩,
    ⟨[189, 236, 259, 260, 262, 477, 524, 547, 548, 550, 628, 725, 729, 730, 731], 0xad20380700001c039b3b6701c0000000004e000ec800, 3⟩,
    ⟨[545, 546, 728], 0x2701800000000ad55aab656aad55aeb556aad40000000000009400000, 0⟩,
    ⟨[527, 552, 727], 0x1800274000, 0⟩,
    ⟨[531, 537, 540, 559, 725, 730, 731], 0x3807000add5bab756eadc00000000ada00006000, 3⟩,
    ⟨[536, 539, 576, 580, 640, 726], 0x180300600c00000000000000000000000015aab556a00009400000, 62⟩,
    ⟨[533, 536, 539, 556, 576, 580, 630, 633, 640, 726], 0x18030064d600000000000000000000000015beb7d6f00135000000, 62⟩,
    ⟨[535, 536, 539, 574, 576, 580, 630, 633, 640, 726], 0x18030064d600000000000000000000000015c2b857000135000000, 62⟩,
    ⟨[535, 536, 539, 574, 576, 580, 630, 633, 640], 0x4dc00000000000000000000000015c6b8d7100136800000, 62⟩,
    ⟨[459, 460, 463, 464, 485, 487, 492, 726], 0x180300657400000000000000000000000015ceb9d730015c800000, 0⟩,
    ⟨[462, 466, 488, 489, 620, 725, 730, 731], 0x380700001c0380700e01c0000000004e002ba800, 3⟩,
    ⟨[468, 483, 507, 620, 725, 730, 731], 0x380700001c0380700e01c0000000004e002bb000, 3⟩,
    ⟨[468, 483, 507, 620], 0x2bb800, 0⟩,
    ⟨[116, 117, 120, 121, 142, 144, 149, 167, 296, 404, 405, 408, 409, 430, 432, 437, 455, 638, 726, 855, 856, 859, 860, 881, 883, 888, 906, 910], 0x180300637f0000000000000000000000000df9bf37e000df400000, 52⟩,
    ⟨[115, 129, 135, 139, 141, 166, 403, 417, 423, 427, 429, 454, 610, 854, 868, 874, 878, 880, 905], 0x2bd57a00000000000af2002bc000, 0⟩,
    ⟨[726, 789, 811, 814, 820, 1051, 1073, 1076, 1082, 1085, 1089], 0x193ca794f20000000000000000000000000e15c2b850015ec00000, 53⟩,
    ⟨[727, 810, 1072], 0x1800279000, 0⟩,
    ⟨[725, 730, 731, 793, 794, 1055, 1056], 0xe0dc2800706e15c1b857060000000004e00006000, 3⟩,
    ⟨[727, 812, 1042], 0x1800223800, 0⟩,
    ⟨[726, 789, 811, 814, 820, 1019, 1041, 1044, 1050, 1051, 1073, 1076, 1082, 1084, 1085, 1089], 0x193da7b4f60000000000000000000000000e31c638c0015f000000, 54⟩,
    ⟨[727, 810, 1040, 1072], 0x180027b000, 0⟩,
    ⟨[725, 730, 731, 793, 794, 1023, 1024, 1055, 1056], 0xe29c6000714e31c538c7140000000004e00006000, 3⟩,
    ⟨[132, 133, 420, 421], 0x4500015f4000000000000000000000000000, 0⟩,
    ⟨[115, 129, 135, 139, 141, 151, 403, 417, 423, 427, 429, 439, 610], 0x1c83900000000000071e001c7000, 0⟩,
    ⟨[116, 117, 120, 121, 142, 144, 149, 404, 405, 408, 409, 430, 432, 437], 0x44f000000000000000000000000113a2744e00113400000, 0⟩,
    ⟨[115, 129, 135, 139, 141, 148, 403, 417, 423, 427, 429, 436, 610], 0x1c83900000000000071e001c7000, 0⟩,
    ⟨[403, 427, 429, 610], 0x2bfd7f00000000000000002bf000, 0⟩,
    ⟨[403, 426, 427, 429, 610], 0x8ae00000000000002bfd7f00000000000000002bf000, 0⟩,
    ⟨[406, 431, 727], 0x1800280800, 0⟩,
    ⟨[410, 416, 419, 438, 725, 730, 731], 0x3807000b03606c0d81b0200000000b0000006000, 3⟩,
    ⟨[415, 418, 455, 638, 726], 0x180300600c0000000000000000000000000e4dc9b9300009400000, 63⟩,
    ⟨[412, 415, 418, 435, 455, 612, 615, 638, 726], 0x18030061e3000000000000000000000000160ac158200078400000, 63⟩,
    ⟨[414, 415, 418, 453, 455, 612, 615, 638, 726], 0x18030061e3000000000000000000000000160ec1d8300078400000, 63⟩,
    ⟨[414, 415, 418, 453, 455, 612, 615, 638], 0x2ce0000000000000000000000001612c2584000b3000000, 63⟩,
    ⟨[652, 654, 657, 659, 725, 730, 731, 790, 801, 802, 1005, 1018, 1077, 1078], 0x7b4248003da126c2b9b3da0000000004e000b2000, 3⟩,
    ⟨[67, 73, 76, 95, 355, 361, 364, 383, 641, 725, 730, 731, 761, 772, 773, 790, 801, 802], 0x860b9000b0d61ec3587b0c0000000033c00110800, 3⟩,
    ⟨[72, 75, 112, 295, 360, 363, 400, 637, 651, 685, 686, 726, 760, 776, 780, 784, 787, 789, 805, 809, 813, 820, 1088, 1089], 0x18b89712e20000000000000000000000000e81d03a0000b8000000, 26⟩,
    ⟨[69, 72, 75, 92, 112, 295, 357, 360, 363, 380, 400, 603, 606, 637, 651, 685, 686, 726, 760, 774, 775, 777, 779, 784, 787, 789, 803, 804, 806, 808, 813, 820, 1088, 1089], 0x18bcd79d0f0000000000000000000000001622c458800143400000, 26⟩,
    ⟨[726, 760, 774, 775, 777, 779, 784, 787, 789, 803, 804, 806, 808, 813, 820, 1051, 1065, 1066, 1068, 1070, 1075, 1082, 1085, 1088, 1089], 0x1962ac558a00000000000000000000000014328650c00162400000, 60⟩,
    ⟨[725, 730, 731, 766, 772, 773, 795, 801, 802, 1057, 1063, 1064], 0x142a86000a154328550ca140000000004e00284800, 3⟩,
    ⟨[725, 730, 731, 762, 772, 773, 791, 801, 802, 1053, 1063, 1064], 0x142ac5800a1562e8558ba140000000004e00284800, 3⟩,
    ⟨[725, 730, 731, 761, 772, 773, 790, 801, 802, 1052, 1063, 1064], 0x142a85800a1542e8550ba140000000004e00284800, 3⟩,
    ⟨[604, 727, 778, 807], 0x18002c6000, 0⟩,
    ⟨[60, 74, 80, 84, 86, 93, 348, 362, 368, 372, 374, 381, 601, 652, 654, 657, 659, 725, 730, 731, 761, 772, 773, 790, 801, 802, 1005, 1018, 1077, 1078], 0xe88b90007445cac6baa744000000004b6001dd000, 3⟩,
    ⟨[607, 726, 760, 776, 780, 784, 787, 789, 805, 809, 813, 820, 1088, 1089], 0x18b89712e2000000000000000000000000163ac758e000b8000000, 14⟩,
    ⟨[727, 778, 807, 1037], 0x18002c7800, 0⟩,
    ⟨[726, 760, 776, 780, 784, 787, 789, 805, 809, 813, 820, 1019, 1035, 1039, 1043, 1050, 1084, 1088, 1089], 0x1963ec7d8f000000000000000000000000118e31c6300164000000, 51⟩,
    ⟨[725, 730, 731, 763, 772, 773, 792, 801, 802, 1022, 1031, 1032], 0x164407000b2203ac880eb220000000004e00230000, 3⟩,
    ⟨[726, 760, 774, 775, 777, 779, 784, 787, 789, 803, 804, 806, 808, 813, 820, 1019, 1033, 1034, 1036, 1038, 1043, 1050, 1051, 1065, 1066, 1068, 1070, 1075, 1082, 1084, 1085, 1088, 1089], 0x1964ec9d93000000000000000000000000145a8b51600164800000, 61⟩,
    ⟨[725, 730, 731, 766, 772, 773, 795, 801, 802, 1025, 1031, 1032, 1057, 1063, 1064], 0x14528b000a2945a8a516a280000000004e00289800, 3⟩,
    ⟨[725, 730, 731, 762, 772, 773, 791, 801, 802, 1021, 1031, 1032, 1053, 1063, 1064], 0x1452ca000a296528a594a280000000004e00289800, 3⟩,
    ⟨[725, 730, 731, 761, 772, 773, 790, 801, 802, 1020, 1031, 1032, 1052, 1063, 1064], 0x14528a800a294568a515a280000000004e00289800, 3⟩,
    ⟨[605, 614, 726], 0x180300600c000000000000000000000000146a8d51a00009400000, 0⟩,
    ⟨[61, 62, 65, 66, 87, 89, 94, 112, 116, 117, 120, 121, 142, 144, 149, 167, 295, 296, 349, 350, 353, 354, 375, 377, 382, 400, 404, 405, 408, 409, 430, 432, 437, 455, 637, 638, 726, 855, 856, 859, 860, 881, 883, 888, 906, 910], 0x18030063af0000000000000000000000000eb9d73ae000eb400000, 55⟩,
    ⟨[81, 82, 136, 137, 369, 370, 424, 425, 728, 875, 876], 0x27018000000008d71aecb46b8d765635c6b8d60000000000009400000, 0⟩,
    ⟨[362, 368, 417, 423, 608, 617, 725, 730, 731], 0x380700001c0380700e01c00000000b2e00006000, 3⟩,
    ⟨[79, 134, 367, 422, 725, 729, 730, 731, 873], 0xa3a0380700001c0380700e01c0000000004e00006000, 3⟩,
    ⟨[727, 783, 812, 970], 0x1800237000, 0⟩,
    ⟨[70, 85, 109, 125, 140, 164, 358, 373, 397, 413, 428, 452, 602, 611, 725, 730, 731, 864, 879, 903], 0x380700001c0380700e01c0000000004e001d6000, 3⟩,
    ⟨[646, 727, 778, 807], 0x18001df800, 0⟩,
    ⟨[115, 139, 141, 403, 427, 429, 610, 725, 730, 731, 790, 801, 802, 854, 878, 880], 0x20c24800106126cd5991060000000004e002cc000, 3⟩,
    ⟨[119, 123, 145, 146, 407, 411, 433, 434, 611, 725, 730, 731, 790, 801, 802, 858, 862, 884, 885, 1006, 1013], 0x20c24800106124418491060000000004e001e4000, 3⟩,
    ⟨[119, 123, 145, 146, 407, 411, 433, 434, 611, 725, 730, 731, 792, 801, 802, 858, 862, 884, 885, 1006, 1013], 0x3a0070001d00387400e1d00000000004e001e4000, 3⟩,
    ⟨[116, 117, 120, 121, 142, 144, 149, 404, 405, 408, 409, 430, 432, 437, 726, 789, 803, 804, 806, 808, 813, 820, 855, 856, 859, 860, 881, 883, 888, 1008, 1010, 1012, 1015, 1089], 0x183a8753c70000000000000000000000000f19e33c6000f1400000, 4⟩,
    ⟨[119, 123, 145, 146, 407, 411, 433, 434, 611, 725, 730, 731, 795, 801, 802, 858, 862, 884, 885, 1006, 1013], 0x20c3c8001061e4418791060000000004e001e4000, 3⟩,
    ⟨[857, 882], 0x293000, 0⟩,
    ⟨[861, 867, 870, 889], 0xb39672ce59cb3800000000b3600000000, 0⟩,
    ⟨[866, 869, 906, 910], 0x149e93d2700000000000, 5⟩,
    ⟨[854, 878, 880], 0x24448800000000000000002ce800, 0⟩,
    ⟨[854, 877, 878, 880], 0x492000000000000024448800000000000000002ce800, 0⟩,
    ⟨[863, 866, 869, 886, 906, 910], 0x167acf59e00000000000, 5⟩,
    ⟨[726, 1051, 1073, 1076, 1082, 1085], 0x194aa9552a0000000000000000000000000f59eb3d600167c00000, 56⟩,
    ⟨[727, 1072], 0x1800295000, 0⟩,
    ⟨[725, 730, 731, 1055, 1056], 0xf51eb0007a8f59ea3d67a80000000004e00006000, 3⟩,
    ⟨[727, 1042], 0x1800246800, 0⟩,
    ⟨[726, 1019, 1041, 1044, 1050, 1051, 1073, 1076, 1082, 1084, 1085], 0x194ba9752e0000000000000000000000000f79ef3de00168000000, 57⟩,
    ⟨[727, 1040, 1072], 0x1800297000, 0⟩,
    ⟨[725, 730, 731, 1023, 1024, 1055, 1056], 0xf71ef0007b8f79ee3de7b80000000004e00006000, 3⟩,
    ⟨[61, 62, 65, 66, 87, 89, 94, 112, 295, 349, 350, 353, 354, 375, 377, 382, 400, 637, 643, 645, 648, 726, 760, 774, 775, 777, 779, 784, 787, 1088], 0x184648cbe10000000000000000000000000f81f03e0000c8c00000, 40⟩,
    ⟨[64, 68, 90, 91, 352, 356, 378, 379, 602, 650, 725, 730, 731, 761, 772, 773], 0x4785400023c2a08f0a823c0000000004e001f1000, 3⟩,
    ⟨[64, 68, 90, 91, 352, 356, 378, 379, 602, 650, 725, 730, 731, 766, 772, 773], 0x4785680023c2b48f0ad23c0000000004e001f1000, 3⟩,
    ⟨[64, 68, 90, 91, 352, 356, 378, 379, 602, 650, 725, 730, 731, 763, 772, 773], 0x6dc0700036e038db80e36e0000000004e001f1000, 3⟩,
    ⟨[61, 62, 65, 66, 87, 89, 94, 112, 295, 349, 350, 353, 354, 375, 377, 382, 400, 637, 653, 655, 660, 726, 760, 774, 775, 777, 779, 784, 787, 1088], 0x184648cbe10000000000000000000000000f81f03e000045800000, 40⟩,
    ⟨[604], 0x2d0800, 0⟩,
    ⟨[60, 74, 80, 84, 86, 111, 348, 362, 368, 372, 374, 399, 601], 0x2d25a400000000000b46002d1000, 0⟩,
    ⟨[607], 0x1696d2da500000000000, 0⟩,
    ⟨[726, 760, 782, 785, 787, 1051, 1073, 1076, 1082, 1085, 1088], 0x194e69cd390000000000000000000000000fa1f43e800169800000, 58⟩,
    ⟨[727, 781, 1072], 0x180029c800, 0⟩,
    ⟨[725, 730, 731, 764, 765, 1055, 1056], 0xf99f40007ccfa1f33e87cc0000000004e00006000, 3⟩,
    ⟨[727, 783, 1042], 0x1800250000, 0⟩,
    ⟨[726, 760, 782, 785, 787, 1019, 1041, 1044, 1050, 1051, 1073, 1076, 1082, 1084, 1085, 1088], 0x194f69ed3d0000000000000000000000000fc9f93f200169c00000, 59⟩,
    ⟨[727, 781, 1040, 1072], 0x180029e800, 0⟩,
    ⟨[725, 730, 731, 764, 765, 1023, 1024, 1055, 1056], 0xfc1f90007e0fc9f83f27e00000000004e00006000, 3⟩,
    ⟨[646, 727, 778], 0x18001f9800, 0⟩,
    ⟨[70, 85, 109, 358, 373, 397, 602, 864, 879, 903], 0x2d4000, 0⟩,
    ⟨[359, 360, 363, 398, 400, 603, 606, 637], 0x53800000000000000000000000016a6d4da90014d800000, 50⟩,
    ⟨[726, 821, 843, 846, 853, 1051, 1073, 1076, 1082, 1085, 1090], 0x1950ea1d430000000000000000000000001022044080016a800000, 53⟩,
    ⟨[727, 842, 1072], 0x18002a1800, 0⟩,
    ⟨[725, 730, 731, 825, 826, 1055, 1056], 0x101a0400080d0220340880c0000000004e00006000, 3⟩,
    ⟨[727, 844, 1042], 0x180025a000, 0⟩,
    ⟨[726, 821, 843, 846, 853, 1019, 1041, 1044, 1050, 1051, 1073, 1076, 1082, 1084, 1085, 1090], 0x1951ea3d470000000000000000000000001042084100016ac00000, 54⟩,
    ⟨[727, 842, 1040, 1072], 0x18002a3800, 0⟩,
    ⟨[725, 730, 731, 825, 826, 1023, 1024, 1055, 1056], 0x103a0800081d0420741081c0000000004e00006000, 3⟩,
    ⟨[61, 62, 65, 66, 87, 89, 94, 112, 295, 349, 350, 353, 354, 375, 377, 382, 400, 637, 643, 645, 648, 726, 760, 774, 775, 777, 779, 784, 787, 821, 835, 836, 838, 840, 845, 853, 1088, 1090], 0x184d89b414000000000000000000000000104e09c13000d5000000, 43⟩,
    ⟨[64, 68, 90, 91, 352, 356, 378, 379, 602, 650, 725, 730, 731, 761, 772, 773, 822, 833, 834], 0x4e0608002703049c0c12700000000004e0020a800, 3⟩,
    ⟨[64, 68, 90, 91, 352, 356, 378, 379, 602, 650, 725, 730, 731, 766, 772, 773, 827, 833, 834], 0x4e0630002703189c0c62700000000004e0020a800, 3⟩,
    ⟨[64, 68, 90, 91, 352, 356, 378, 379, 602, 650, 725, 730, 731, 763, 772, 773, 824, 833, 834], 0x758070003ac038eb00e3ac0000000004e0020a800, 3⟩,
    ⟨[61, 62, 65, 66, 87, 89, 94, 112, 295, 349, 350, 353, 354, 375, 377, 382, 400, 637, 653, 655, 660, 726, 760, 774, 775, 777, 779, 784, 787, 821, 835, 836, 838, 840, 845, 853, 1088, 1090], 0x184d89b414000000000000000000000000104e09c130004cc00000, 43⟩,
    ⟨[726, 760, 782, 785, 787, 821, 843, 846, 853, 1051, 1073, 1076, 1082, 1085, 1088, 1090], 0x1953ea7d4f00000000000000000000000010660cc190016b000000, 60⟩,
    ⟨[727, 781, 842, 1072], 0x18002a7800, 0⟩,
    ⟨[725, 730, 731, 764, 765, 825, 826, 1055, 1056], 0x105e0c80082f0660bc1982e0000000004e00006000, 3⟩,
    ⟨[727, 783, 844, 1042], 0x1800263800, 0⟩,
    ⟨[726, 760, 782, 785, 787, 821, 843, 846, 853, 1019, 1041, 1044, 1050, 1051, 1073, 1076, 1082, 1084, 1085, 1088, 1090], 0x1954ea9d53000000000000000000000000108e11c230016b400000, 61⟩,
    ⟨[727, 781, 842, 1040, 1072], 0x18002a9800, 0⟩,
    ⟨[725, 730, 731, 764, 765, 825, 826, 1023, 1024, 1055, 1056], 0x10861180084308e10c238420000000004e00006000, 3⟩,
    ⟨[646, 727, 778, 839], 0x1800212000, 0⟩,
    ⟨[247, 248, 251, 286, 288, 292, 298, 535, 536, 539, 574, 576, 580, 630, 633, 640, 726], 0x18030064d600000000000000000000000016bad75ae00135000000, 44⟩,
    ⟨[246, 261, 285, 534, 549, 573, 629], 0x216800, 0⟩,
    ⟨[632, 726], 0x180300600c000000000000000000000000156aad55a00009400000, 0⟩,
    ⟨[538, 544, 635, 725, 730, 731], 0x380700001c0380700e01c000000009ca00006000, 3⟩,
    ⟨[623, 632, 726], 0x180300600c000000000000000000000000157aaf55e00009400000, 0⟩,
    ⟨[171, 172, 175, 176, 197, 199, 204, 222, 237, 238, 241, 242, 263, 265, 270, 288, 292, 297, 298, 459, 460, 463, 464, 485, 487, 492, 510, 525, 526, 529, 530, 551, 553, 558, 576, 580, 639, 640, 726], 0x180300643000000000000000000000000010be17c2f0010b800000, 45⟩,
    ⟨[191, 192, 257, 258, 479, 480, 545, 546, 728], 0x27018000000009bf37ed84df9bf6be6fcdf9be0000000000009400000, 0⟩,
    ⟨[472, 478, 538, 544, 626, 635, 725, 730, 731], 0x380700001c0380700e01c00000000b6200006000, 3⟩,
    ⟨[632], 0x158eb1d6300000000000, 0⟩,
    ⟨[237, 238, 241, 242, 263, 265, 270, 288, 292, 298, 525, 526, 529, 530, 551, 553, 558, 576, 580, 640], 0x5b400000000000000000000000016ced9db30016c800000, 44⟩,
    ⟨[257, 258, 545, 546], 0xb6b6d6db5b5b6b6dadadb5b6a0000000000000000000, 0⟩,
    ⟨[240, 244, 266, 267, 528, 532, 554, 555, 629], 0x2db800, 0⟩,
    ⟨[538, 544, 635], 0xb7000000000, 0⟩,
    ⟨[189, 255, 477, 543, 725, 729, 730, 731], 0xad20380700001c0380700e01c0000000004e00006000, 3⟩,
    ⟨[170, 184, 190, 194, 196, 221, 458, 472, 478, 482, 484, 509, 619, 725, 730, 731], 0x380700001c038688d101c0000000056600159000, 3⟩,
    ⟨[622], 0x2dc800, 0⟩,
    ⟨[170, 184, 190, 194, 196, 221, 458, 472, 478, 482, 484, 509, 619], 0x2de5bc00000000000b76002dd000, 0⟩,
    ⟨[625], 0x16f6dedbd00000000000, 0⟩,
    ⟨[180, 195, 219, 246, 261, 285, 468, 483, 507, 534, 549, 573, 620, 629, 725, 730, 731], 0x380700001c0380700e01c0000000004e00216000, 3⟩,
    ⟨[524, 548, 550, 628, 725, 730, 731], 0x380700001c03a1cc3901c0000000004e0021c000, 3⟩,
    ⟨[524, 547, 548, 550, 628, 725, 729, 730, 731], 0xb7c0380700001c03a1cc3901c0000000004e0021c000, 3⟩,
    ⟨[524, 547, 548, 550, 628, 725, 730, 731], 0xb7e0380700001c03a1cc3901c0000000004e0021c000, 3⟩,
    ⟨[541, 542, 728], 0x270180000000001c0380756a01d7000700e01c0000000000009400000, 0⟩,
    ⟨[524, 538, 544, 548, 550, 560, 628, 725, 730, 731], 0x380700001c03a1cc3901c000000009ca002e0800, 3⟩,
    ⟨[524, 538, 544, 548, 550, 557, 628, 725, 730, 731], 0x380700001c03a1cc3901c000000009ca002e0800, 3⟩,
    ⟨[524, 538, 544, 548, 550, 575, 628, 725, 730, 731], 0x380700001c03a1cc3901c000000009ca002e0800, 3⟩,
    ⟨[524, 538, 544, 548, 550, 575, 628], 0x2e1dc300000000000b70002e1000, 0⟩,
    ⟨[461, 486, 727], 0x18002ba000, 0⟩,
    ⟨[465, 471, 474, 493, 725, 730, 731], 0x3807000b8b716e2dc5b8a00000000b8800006000, 3⟩,
    ⟨[470, 473, 510, 639, 726], 0x180300600c00000000000000000000000010f21e43c00009400000, 64⟩,
    ⟨[467, 470, 473, 490, 510, 621, 624, 639, 726], 0x18030061e0000000000000000000000000171ae35c600077800000, 64⟩,
    ⟨[469, 470, 473, 508, 510, 621, 624, 639, 726], 0x18030061e0000000000000000000000000171ee3dc700077800000, 64⟩,
    ⟨[469, 470, 473, 508, 510, 621, 624, 639], 0x5680000000000000000000000001722e45c800159800000, 64⟩,
    ⟨[116, 117, 120, 121, 142, 144, 149, 167, 296, 404, 405, 408, 409, 430, 432, 437, 455, 638, 855, 856, 859, 860, 881, 883, 888, 906, 910], 0x5cb000000000000000000000000172ae55ca00172400000, 52⟩,
    ⟨[136, 137, 424, 425, 875, 876], 0xb99732e6dccb99736e65ccb980000000000000000000, 0⟩,
    ⟨[119, 123, 145, 146, 407, 411, 433, 434, 611, 858, 862, 884, 885], 0x2e7000, 0⟩,
    ⟨[727, 812, 1074], 0x1800279000, 0⟩,
    ⟨[727, 812, 1042, 1074], 0x180027b000, 0⟩,
    ⟨[134, 422], 0x87e00000000000000000000000000000000000000000, 0⟩,
    ⟨[404, 405, 408, 409, 430, 432, 437], 0x5d10000000000000000000000001742e85d000173c00000, 0⟩,
    ⟨[407, 411, 433, 434, 611], 0x2e9000, 0⟩,
    ⟨[420, 421, 728], 0x270180000000001c0380739301d74c0700e01c0000000000009400000, 0⟩,
    ⟨[403, 417, 423, 427, 429, 439, 610, 725, 730, 731], 0x380700001c03a2ac5501c000000005a4002ea000, 3⟩,
    ⟨[403, 417, 423, 427, 429, 436, 610, 725, 730, 731], 0x380700001c03a2ac5501c000000005a4002ea000, 3⟩,
    ⟨[403, 417, 423, 427, 429, 454, 610, 725, 730, 731], 0x380700001c03a2ac5501c000000005a4002ea000, 3⟩,
    ⟨[403, 417, 423, 427, 429, 454, 610], 0x2bfd7f000000000008a6002ea800, 0⟩,
    ⟨[658, 725, 730, 731, 795, 801, 802, 1006, 1013, 1079], 0xb11618001061e4418791060000000004e0022c000, 3⟩,
    ⟨[60, 74, 80, 84, 86, 96, 348, 362, 368, 372, 374, 384, 601, 642, 644, 647, 649, 725, 730, 731, 766, 772, 773, 795, 801, 802], 0x8610d80043086eec5d7430000000004b6002eb000, 3⟩,
    ⟨[60, 74, 80, 84, 86, 96, 348, 362, 368, 372, 374, 384, 601, 642, 644, 647, 649, 725, 730, 731, 762, 772, 773, 791, 801, 802], 0x86110000430882ec5d9430000000004b6002eb000, 3⟩,
    ⟨[60, 74, 80, 84, 86, 93, 348, 362, 368, 372, 374, 381, 601, 652, 654, 657, 659, 725, 730, 731, 761, 772, 773, 790, 801, 802], 0x860b90004305ca2dc5a430000000004b6002ed000, 3⟩,
    ⟨[727, 778, 807, 1069], 0x18002ed800, 0⟩,
    ⟨[726, 760, 776, 780, 784, 787, 789, 805, 809, 813, 820, 1051, 1067, 1071, 1075, 1082, 1085, 1088, 1089], 0x1976eedddb00000000000000000000000014328650c00177000000, 60⟩,
    ⟨[725, 730, 731, 763, 772, 773, 792, 801, 802, 1054, 1063, 1064], 0x177407000bba03aee80ebba0000000004e00284800, 3⟩,
    ⟨[605, 726, 760, 782, 785, 787, 789, 811, 814, 820, 1088, 1089], 0x18b89712e2000000000000000000000000163ac758e000e7c00000, 14⟩,
    ⟨[64, 68, 90, 91, 352, 356, 378, 379, 602, 658, 725, 730, 731, 766, 772, 773, 795, 801, 802, 1006, 1013, 1079], 0x117a2e80043086d0c21b4300000000004e0022f800, 3⟩,
    ⟨[362, 368, 608, 725, 730, 731, 761, 772, 773, 790, 801, 802], 0x860b90004305c90c1724300000000067e00110800, 3⟩,
    ⟨[726, 760, 782, 785, 787, 789, 811, 814, 820, 1019, 1041, 1044, 1050, 1084, 1088, 1089], 0x1963ec7d8f000000000000000000000000118e31c6300177800000, 51⟩,
    ⟨[727, 781, 810, 1040], 0x18002c7800, 0⟩,
    ⟨[725, 730, 731, 764, 765, 793, 794, 1023, 1024], 0x1186318008c318e30c638c20000000004e00006000, 3⟩,
    ⟨[727, 778, 807, 1037, 1069], 0x18002ef800, 0⟩,
    ⟨[726, 760, 776, 780, 784, 787, 789, 805, 809, 813, 820, 1019, 1035, 1039, 1043, 1050, 1051, 1067, 1071, 1075, 1082, 1084, 1085, 1088, 1089], 0x1977eefddf000000000000000000000000145a8b51600178000000, 61⟩,
    ⟨[725, 730, 731, 763, 772, 773, 792, 801, 802, 1022, 1031, 1032, 1054, 1063, 1064], 0x178407000bc203af080ebc20000000004e00289800, 3⟩,
    ⟨[60, 83, 84, 86, 115, 138, 139, 141, 348, 371, 372, 374, 403, 426, 427, 429, 601, 610, 725, 729, 730, 731, 854, 877, 878, 880], 0xa3a0380700001c03972ae501c0000000004e00172000, 3⟩,
    ⟨[60, 83, 84, 86, 115, 138, 139, 141, 348, 371, 372, 374, 403, 426, 427, 429, 601, 610, 725, 730, 731, 854, 877, 878, 880], 0xbc40380700001c03972ae501c0000000004e00172000, 3⟩,
    ⟨[369, 370, 424, 425, 728], 0x2701800000000bc778ef2de3bc7792f1de3bc60000000000009400000, 0⟩,
    ⟨[116, 117, 120, 121, 142, 144, 149, 404, 405, 408, 409, 430, 432, 437, 726, 789, 803, 804, 806, 808, 813, 820, 855, 856, 859, 860, 881, 883, 888, 1089], 0x183a8755e7000000000000000000000000179af35e6000f1400000, 4⟩,
    ⟨[119, 123, 145, 146, 407, 411, 433, 434, 611, 725, 730, 731, 791, 801, 802, 858, 862, 884, 885], 0x20c3f8001061fc4187f1060000000004e002f4000, 3⟩,
    ⟨[119, 123, 145, 146, 407, 411, 433, 434, 611, 725, 730, 731, 795, 801, 802, 858, 862, 884, 885], 0x20c3c8001061e4418791060000000004e002f4000, 3⟩,
    ⟨[871, 872], 0x5270017a4000000000000000000000000000, 0⟩,
    ⟨[854, 868, 874, 878, 880, 890], 0x2444880000000000090e00243000, 0⟩,
    ⟨[855, 856, 859, 860, 881, 883, 888], 0x526000000000000000000000000149692d2500149000000, 0⟩,
    ⟨[854, 868, 874, 878, 880, 887], 0x2444880000000000090e00243000, 0⟩,
    ⟨[727, 1074], 0x1800295000, 0⟩,
    ⟨[727, 1042, 1074], 0x1800297000, 0⟩,
    ⟨[605], 0x1696d2da500000000000, 0⟩,
    ⟨[61, 62, 65, 66, 87, 89, 94, 112, 295, 349, 350, 353, 354, 375, 377, 382, 400, 637], 0x5ec00000000000000000000000017aef5deb0017a800000, 41⟩,
    ⟨[81, 82, 369, 370], 0xbdb7b6f75edbdb7baf6dedbda0000000000000000000, 0⟩,
    ⟨[64, 68, 90, 91, 352, 356, 378, 379, 602], 0x2f7800, 0⟩,
    ⟨[362, 368, 608], 0xbe000000000, 0⟩,
    ⟨[727, 783, 1074], 0x180029c800, 0⟩,
    ⟨[727, 783, 1042, 1074], 0x180029e800, 0⟩,
    ⟨[71, 72, 75, 110, 112, 295, 359, 360, 363, 398, 400, 603, 606, 637, 865, 866, 869, 904, 906, 910], 0x53800000000000000000000000017c6f8df10014d800000, 42⟩,
    ⟨[348, 362, 368, 372, 374, 399, 601], 0x2f9df300000000000be0002f9000, 0⟩,
    ⟨[727, 844, 1074], 0x18002a1800, 0⟩,
    ⟨[727, 844, 1042, 1074], 0x18002a3800, 0⟩,
    ⟨[727, 783, 844, 1074], 0x18002a7800, 0⟩,
    ⟨[727, 783, 844, 1042, 1074], 0x18002a9800, 0⟩,
    ⟨[236, 250, 256, 260, 262, 287, 524, 538, 544, 548, 550, 575, 628, 725, 730, 731], 0x380700001c039b3b6701c0000000085400214800, 3⟩,
    ⟨[170, 193, 194, 196, 236, 259, 260, 262, 458, 481, 482, 484, 524, 547, 548, 550, 619, 628, 725, 729, 730, 731], 0xad20380700001c039b5b6b01c0000000004e001b5000, 3⟩,
    ⟨[170, 193, 194, 196, 236, 259, 260, 262, 458, 481, 482, 484, 524, 547, 548, 550, 619, 628, 725, 730, 731], 0xbe80380700001c039b5b6b01c0000000004e001b5000, 3⟩,
    ⟨[479, 480, 545, 546, 728], 0x2701800000000beb7d6fbdf5beb7dafadf5bea0000000000009400000, 0⟩,
    ⟨[239, 264, 527, 552], 0x2da000, 0⟩,
    ⟨[243, 249, 252, 271, 531, 537, 540, 559], 0xbf37e6fcdf9bf200000000bf000000000, 0⟩,
    ⟨[248, 251, 288, 292, 298, 536, 539, 576, 580, 640], 0x16d6dadb500000000000, 44⟩,
    ⟨[236, 260, 262, 524, 548, 550, 628], 0x2b156200000000000000002fd000, 0⟩,
    ⟨[236, 259, 260, 262, 524, 547, 548, 550, 628], 0xab000000000000002b156200000000000000002fd000, 0⟩,
    ⟨[245, 248, 251, 268, 288, 292, 298, 533, 536, 539, 556, 576, 580, 630, 633, 640], 0x4dc00000000000000000000000017eefddfb00136800000, 44⟩,
    ⟨[545, 546], 0xbf97f2fedfcbf97f6fe5fcbf80000000000000000000, 0⟩,
    ⟨[623], 0x16f6dedbd00000000000, 0⟩,
    ⟨[171, 172, 175, 176, 197, 199, 204, 222, 297, 459, 460, 463, 464, 485, 487, 492, 510, 639], 0x60000000000000000000000000017feffdff0017f800000, 29⟩,
    ⟨[191, 192, 479, 480], 0xc0380701601c0380b00e01c020000000000000000000, 0⟩,
    ⟨[174, 178, 200, 201, 462, 466, 488, 489, 620], 0x301800, 0⟩,
    ⟨[472, 478, 626], 0xc0800000000, 0⟩,
    ⟨[534, 549, 573, 629, 725, 730, 731], 0x380700001c0380700e01c0000000004e00275000, 3⟩,
    ⟨[534, 549, 573, 629], 0x275800, 0⟩,
    ⟨[543, 725, 729, 730, 731], 0xb7c0380700001c0380700e01c0000000004e00006000, 3⟩,
    ⟨[525, 526, 529, 530, 551, 553, 558, 576, 580, 640, 726], 0x18030064e8000000000000000000000000139e73ce700139800000, 62⟩,
    ⟨[525, 526, 529, 530, 551, 553, 558, 576, 580, 640], 0x607000000000000000000000000181b0360600181400000, 62⟩,
    ⟨[528, 532, 554, 555, 629], 0x304000, 0⟩,
    ⟨[475, 476, 728], 0x270180000000001c0380743c01d8240700e01c0000000000009400000, 0⟩,
    ⟨[458, 472, 478, 482, 484, 494, 619, 725, 730, 731], 0x380700001c03a76ced01c000000006f000305000, 3⟩,
    ⟨[458, 472, 478, 482, 484, 491, 619, 725, 730, 731], 0x380700001c03a76ced01c000000006f000305000, 3⟩,
    ⟨[458, 472, 478, 482, 484, 509, 619, 725, 730, 731], 0x380700001c03a76ced01c000000006f000305000, 3⟩,
    ⟨[458, 472, 478, 482, 484, 509, 619], 0x30660c00000000000c0800305800, 0⟩,
    ⟨[118, 143, 406, 431, 857, 882], 0x2e5800, 0⟩,
    ⟨[122, 128, 131, 150, 410, 416, 419, 438, 861, 867, 870, 889], 0xc1d83b0760ec1c00000000c1a00000000, 0⟩,
    ⟨[127, 130, 167, 296, 415, 418, 455, 638, 866, 869, 906, 910], 0x1732e65cc00000000000, 52⟩,
    ⟨[115, 139, 141, 403, 427, 429, 610, 854, 878, 880], 0x2bd57a0000000000000000307800, 0⟩,
    ⟨[115, 138, 139, 141, 403, 426, 427, 429, 610, 854, 877, 878, 880], 0x70200000000000002bd57a0000000000000000307800, 0⟩,
    ⟨[124, 127, 130, 147, 167, 296, 412, 415, 418, 435, 455, 612, 615, 638, 863, 866, 869, 886, 906, 910], 0x2ce000000000000000000000000184308610000b3000000, 52⟩,
    ⟨[406, 431], 0x2e8800, 0⟩,
    ⟨[410, 416, 419, 438], 0xc2584b09612c2400000000c2200000000, 0⟩,
    ⟨[415, 418, 455, 638], 0x13f67ecfd00000000000, 63⟩,
    ⟨[412, 415, 418, 435, 455, 612, 615, 638], 0x2ce000000000000000000000000184f09e13000b3000000, 63⟩,
    ⟨[422, 725, 729, 730, 731], 0x8ac0380700001c0380700e01c0000000004e00006000, 3⟩,
    ⟨[404, 405, 408, 409, 430, 432, 437, 455, 638, 726], 0x18030065010000000000000000000000001402805000013fc00000, 63⟩,
    ⟨[404, 405, 408, 409, 430, 432, 437, 455, 638], 0x5d10000000000000000000000001742e85d000173c00000, 63⟩,
    ⟨[61, 62, 65, 66, 87, 89, 94, 112, 295, 349, 350, 353, 354, 375, 377, 382, 400, 637, 643, 645, 648, 726, 760, 774, 775, 777, 779, 784, 787, 789, 803, 804, 806, 808, 813, 820, 1088, 1089], 0x188510a507000000000000000000000000141a8350600117000000, 43⟩,
    ⟨[64, 68, 90, 91, 352, 356, 378, 379, 602, 650, 725, 730, 731, 761, 772, 773, 790, 801, 802], 0x860b90004305c90c1724300000000004e00284000, 3⟩,
    ⟨[64, 68, 90, 91, 352, 356, 378, 379, 602, 650, 725, 730, 731, 766, 772, 773, 795, 801, 802], 0x8610d80043086d0c21b4300000000004e00284000, 3⟩,
    ⟨[64, 68, 90, 91, 352, 356, 378, 379, 602, 650, 725, 730, 731, 763, 772, 773, 792, 801, 802], 0xbc4070005e20397880e5e20000000004e00284000, 3⟩,
    ⟨[61, 62, 65, 66, 87, 89, 94, 112, 295, 349, 350, 353, 354, 375, 377, 382, 400, 637, 653, 655, 660, 726, 760, 774, 775, 777, 779, 784, 787, 789, 803, 804, 806, 808, 813, 820, 1088, 1089], 0x188510a507000000000000000000000000141a8350600084400000, 43⟩,
    ⟨[726, 760, 782, 785, 787, 789, 811, 814, 820, 1051, 1073, 1076, 1082, 1085, 1088, 1089], 0x1976eedddb00000000000000000000000014328650c00185000000, 60⟩,
    ⟨[727, 781, 810, 1072], 0x18002ed800, 0⟩,
    ⟨[725, 730, 731, 764, 765, 793, 794, 1055, 1056], 0x142a86000a154328550ca140000000004e00006000, 3⟩,
    ⟨[727, 783, 812, 1042], 0x18002c7800, 0⟩,
    ⟨[726, 760, 782, 785, 787, 789, 811, 814, 820, 1019, 1041, 1044, 1050, 1051, 1073, 1076, 1082, 1084, 1085, 1088, 1089], 0x1977eefddf000000000000000000000000145a8b51600185400000, 61⟩,
    ⟨[727, 781, 810, 1040, 1072], 0x18002ef800, 0⟩,
    ⟨[725, 730, 731, 764, 765, 793, 794, 1023, 1024, 1055, 1056], 0x14528b000a2945a8a516a280000000004e00006000, 3⟩,
    ⟨[70, 85, 109, 125, 140, 164, 358, 373, 397, 413, 428, 452, 602, 611, 864, 879, 903], 0x30b000, 0⟩,
    ⟨[348, 372, 374, 403, 427, 429, 601, 610, 725, 730, 731], 0x380700001c03b0c61801c0000000004e0030b800, 3⟩,
    ⟨[348, 371, 372, 374, 403, 426, 427, 429, 601, 610, 725, 729, 730, 731], 0xc320380700001c03b0c61801c0000000004e0030b800, 3⟩,
    ⟨[348, 371, 372, 374, 403, 426, 427, 429, 601, 610, 725, 730, 731], 0xc340380700001c03b0c61801c0000000004e0030b800, 3⟩,
    ⟨[122, 128, 131, 150, 410, 416, 419, 438, 725, 730, 731, 790, 801, 802, 861, 867, 870, 889], 0x20c24800c378730de1cc360000000029a00041000, 3⟩,
    ⟨[127, 130, 167, 296, 415, 418, 455, 638, 726, 789, 805, 809, 813, 820, 866, 869, 906, 910, 1089], 0x1854ca9953000000000000000000000000147e8fd1f00054400000, 36⟩,
    ⟨[124, 127, 130, 147, 167, 296, 412, 415, 418, 435, 455, 612, 615, 638, 726, 789, 803, 804, 806, 808, 813, 820, 863, 866, 869, 886, 906, 910, 1089], 0x183a87515c00000000000000000000000018770ee1d00056800000, 36⟩,
    ⟨[873], 0x49200000000000000000000000000000000000000000, 0⟩,
    ⟨[63, 88, 351, 376], 0x2f6000, 0⟩,
    ⟨[67, 73, 76, 95, 355, 361, 364, 383], 0xc3f87f0fe1fc3e00000000c3c00000000, 0⟩,
    ⟨[72, 75, 112, 295, 360, 363, 400, 637], 0x17b6f6ded00000000000, 41⟩,
    ⟨[60, 84, 86, 348, 372, 374, 601], 0x2d25a40000000000000000310000, 0⟩,
    ⟨[60, 83, 84, 86, 348, 371, 372, 374, 601], 0x7c800000000000002d25a40000000000000000310000, 0⟩,
    ⟨[69, 72, 75, 92, 112, 295, 357, 360, 363, 380, 400, 603, 606, 637], 0x538000000000000000000000000188710e210014d800000, 41⟩,
    ⟨[369, 370], 0xc4588b11e22c4588f11622c440000000000000000000, 0⟩,
    ⟨[60, 74, 80, 84, 86, 111, 348, 362, 368, 372, 374, 399, 601, 854, 868, 874, 878, 880, 905], 0x31362600000000000c4a00312000, 0⟩,
    ⟨[349, 350, 353, 354, 375, 377, 382, 400, 637], 0x62900000000000000000000000018a31462800189c00000, 50⟩,
    ⟨[352, 356, 378, 379, 602], 0x315000, 0⟩,
    ⟨[180, 195, 219, 246, 261, 285, 468, 483, 507, 534, 549, 573, 620, 629], 0x315800, 0⟩,
    ⟨[458, 482, 484, 524, 548, 550, 619, 628, 725, 730, 731], 0x380700001c03b16e2d01c0000000004e00316000, 3⟩,
    ⟨[458, 481, 482, 484, 524, 547, 548, 550, 619, 628, 725, 729, 730, 731], 0xc5c0380700001c03b16e2d01c0000000004e00316000, 3⟩,
    ⟨[458, 481, 482, 484, 524, 547, 548, 550, 619, 628, 725, 730, 731], 0xc5e0380700001c03b16e2d01c0000000004e00316000, 3⟩,
    ⟨[253, 254, 541, 542], 0x5b50018c0000000000000000000000000000, 0⟩,
    ⟨[236, 250, 256, 260, 262, 272, 524, 538, 544, 548, 550, 560, 628], 0x2b156200000000000ac2002b0000, 0⟩,
    ⟨[237, 238, 241, 242, 263, 265, 270, 525, 526, 529, 530, 551, 553, 558], 0x5b400000000000000000000000016ced9db30016c800000, 0⟩,
    ⟨[236, 250, 256, 260, 262, 269, 524, 538, 544, 548, 550, 557, 628], 0x2b156200000000000ac2002b0000, 0⟩,
    ⟨[524, 548, 550, 628], 0x2e1dc30000000000000000318800, 0⟩,
    ⟨[524, 547, 548, 550, 628], 0xb7e00000000000002e1dc30000000000000000318800, 0⟩,
    ⟨[173, 198, 461, 486], 0x300000, 0⟩,
    ⟨[177, 183, 186, 205, 465, 471, 474, 493], 0xc678cf19e33c6600000000c6400000000, 0⟩,
    ⟨[182, 185, 222, 297, 470, 473, 510, 639], 0x180700e0100000000000, 29⟩,
    ⟨[170, 194, 196, 458, 482, 484, 619], 0x2de5bc000000000000000031a000, 0⟩,
    ⟨[170, 193, 194, 196, 458, 481, 482, 484, 619], 0x86800000000000002de5bc000000000000000031a000, 0⟩,
    ⟨[179, 182, 185, 202, 222, 297, 467, 470, 473, 490, 510, 621, 624, 639], 0x56800000000000000000000000018d71ae3500159800000, 29⟩,
    ⟨[479, 480], 0xc6d8db1be36c6d8df1b636c6c0000000000000000000, 0⟩,
    ⟨[527, 552], 0x303800, 0⟩,
    ⟨[531, 537, 540, 559], 0xc738e71ce39c7200000000c7000000000, 0⟩,
    ⟨[536, 539, 576, 580, 640], 0x17f2fe5fc00000000000, 62⟩,
    ⟨[533, 536, 539, 556, 576, 580, 630, 633, 640], 0x4dc00000000000000000000000018eb1d63a00136800000, 62⟩,
    ⟨[477, 725, 729, 730, 731], 0x9dc0380700001c0380700e01c0000000004e00006000, 3⟩,
    ⟨[459, 460, 463, 464, 485, 487, 492, 510, 639, 726], 0x180300657400000000000000000000000015ceb9d730015c800000, 64⟩,
    ⟨[459, 460, 463, 464, 485, 487, 492, 510, 639], 0x63d00000000000000000000000018f31e63c0018ec00000, 64⟩,
    ⟨[462, 466, 488, 489, 620], 0x31f000, 0⟩,
    ⟨[132, 133, 420, 421, 871, 872], 0x5cc0018fc000000000000000000000000000, 0⟩,
    ⟨[115, 129, 135, 139, 141, 151, 403, 417, 423, 427, 429, 439, 610, 854, 868, 874, 878, 880, 890], 0x2bd57a00000000000af2002bc000, 0⟩,
    ⟨[116, 117, 120, 121, 142, 144, 149, 404, 405, 408, 409, 430, 432, 437, 855, 856, 859, 860, 881, 883, 888], 0x5cb000000000000000000000000172ae55ca00172400000, 0⟩,
    ⟨[115, 129, 135, 139, 141, 148, 403, 417, 423, 427, 429, 436, 610, 854, 868, 874, 878, 880, 887], 0x2bd57a00000000000af2002bc000, 0⟩,
    ⟨[420, 421], 0x4fd001900000000000000000000000000000, 0⟩,
    ⟨[403, 417, 423, 427, 429, 439, 610], 0x2bfd7f000000000008a6002ea800, 0⟩,
    ⟨[403, 417, 423, 427, 429, 436, 610], 0x2bfd7f000000000008a6002ea800, 0⟩,
    ⟨[727, 783, 812, 1074], 0x18002ed800, 0⟩,
    ⟨[727, 783, 812, 1042, 1074], 0x18002ef800, 0⟩,
    ⟨[71, 72, 75, 110, 112, 126, 127, 130, 165, 167, 295, 296, 359, 360, 363, 398, 400, 414, 415, 418, 453, 455, 603, 606, 612, 615, 637, 638, 865, 866, 869, 904, 906, 910], 0x643000000000000000000000000190b2164200190400000, 55⟩,
    ⟨[349, 350, 353, 354, 375, 377, 382, 404, 405, 408, 409, 430, 432, 437, 726], 0x1803006646000000000000000000000000191722e4500191000000, 0⟩,
    ⟨[352, 356, 378, 379, 407, 411, 433, 434, 602, 611, 725, 730, 731], 0x380700001c0380700e01c0000000004e00323800, 3⟩,
    ⟨[358, 373, 397, 413, 428, 452, 602, 611, 725, 730, 731], 0x380700001c0380700e01c0000000004e00324000, 3⟩,
    ⟨[358, 373, 397, 413, 428, 452, 602, 611], 0x324800, 0⟩,
    ⟨[115, 129, 135, 139, 141, 151, 403, 417, 423, 427, 429, 439, 610, 725, 730, 731, 795, 801, 802, 854, 868, 874, 878, 880, 890], 0x20c3c8001061e6cd64b106000000003d800325000, 3⟩,
    ⟨[115, 129, 135, 139, 141, 151, 403, 417, 423, 427, 429, 439, 610, 725, 730, 731, 791, 801, 802, 854, 868, 874, 878, 880, 890], 0x20c3f8001061fecd64c106000000003d800325000, 3⟩,
    ⟨[115, 129, 135, 139, 141, 148, 403, 417, 423, 427, 429, 436, 610, 725, 730, 731, 790, 801, 802, 854, 868, 874, 878, 880, 887], 0x20c24800106126cd599106000000003d800325000, 3⟩,
    ⟨[77, 78, 365, 366], 0x5ed001934000000000000000000000000000, 0⟩,
    ⟨[60, 74, 80, 84, 86, 96, 348, 362, 368, 372, 374, 384, 601], 0x2d25a400000000000b46002d1000, 0⟩,
    ⟨[61, 62, 65, 66, 87, 89, 94, 349, 350, 353, 354, 375, 377, 382], 0x5ec00000000000000000000000017aef5deb0017a800000, 0⟩,
    ⟨[60, 74, 80, 84, 86, 93, 348, 362, 368, 372, 374, 381, 601], 0x2d25a400000000000b46002d1000, 0⟩,
    ⟨[348, 372, 374, 601], 0x2f9df30000000000000000327000, 0⟩,
    ⟨[348, 371, 372, 374, 601], 0x95a00000000000002f9df30000000000000000327000, 0⟩,
    ⟨[61, 62, 65, 66, 87, 89, 94, 112, 295, 349, 350, 353, 354, 375, 377, 382, 400, 637, 855, 856, 859, 860, 881, 883, 888, 906, 910], 0x65100000000000000000000000019432865000193c00000, 42⟩,
    ⟨[81, 82, 369, 370, 875, 876], 0xca594b29e52ca594f29652ca40000000000000000000, 0⟩,
    ⟨[64, 68, 90, 91, 352, 356, 378, 379, 602, 858, 862, 884, 885], 0x32a000, 0⟩,
    ⟨[351, 376], 0x314800, 0⟩,
    ⟨[355, 361, 364, 383], 0xcad95b2b656cac00000000caa00000000, 0⟩,
    ⟨[360, 363, 400, 637], 0x188b1162200000000000, 50⟩,
    ⟨[357, 360, 363, 380, 400, 603, 606, 637], 0x538000000000000000000000000195f2be570014d800000, 50⟩,
    ⟨[181, 182, 185, 220, 222, 247, 248, 251, 286, 288, 292, 297, 298, 469, 470, 473, 508, 510, 535, 536, 539, 574, 576, 580, 621, 624, 630, 633, 639, 640], 0x65a00000000000000000000000019672ce5900196000000, 45⟩,
    ⟨[459, 460, 463, 464, 485, 487, 492, 525, 526, 529, 530, 551, 553, 558, 726], 0x180300665d00000000000000000000000019732e65c00196c00000, 0⟩,
    ⟨[462, 466, 488, 489, 528, 532, 554, 555, 620, 629, 725, 730, 731], 0x380700001c0380700e01c0000000004e0032f000, 3⟩,
    ⟨[468, 483, 507, 534, 549, 573, 620, 629, 725, 730, 731], 0x380700001c0380700e01c0000000004e0032f800, 3⟩,
    ⟨[468, 483, 507, 534, 549, 573, 620, 629], 0x330000, 0⟩,
    ⟨[255, 543], 0xab000000000000000000000000000000000000000000, 0⟩,
    ⟨[525, 526, 529, 530, 551, 553, 558], 0x607000000000000000000000000181b0360600181400000, 0⟩,
    ⟨[187, 188, 475, 476], 0x601001984000000000000000000000000000, 0⟩,
    ⟨[170, 184, 190, 194, 196, 206, 458, 472, 478, 482, 484, 494, 619], 0x2de5bc00000000000b76002dd000, 0⟩,
    ⟨[171, 172, 175, 176, 197, 199, 204, 459, 460, 463, 464, 485, 487, 492], 0x60000000000000000000000000017feffdff0017f800000, 0⟩,
    ⟨[170, 184, 190, 194, 196, 203, 458, 472, 478, 482, 484, 491, 619], 0x2de5bc00000000000b76002dd000, 0⟩,
    ⟨[458, 482, 484, 619], 0x30660c0000000000000000331000, 0⟩,
    ⟨[458, 481, 482, 484, 619], 0x9de000000000000030660c0000000000000000331000, 0⟩,
    ⟨[541, 542], 0x5fc00198c000000000000000000000000000, 0⟩,
    ⟨[524, 538, 544, 548, 550, 560, 628], 0x2e1dc300000000000b70002e1000, 0⟩,
    ⟨[524, 538, 544, 548, 550, 557, 628], 0x2e1dc300000000000b70002e1000, 0⟩,
    ⟨[461, 486], 0x31e800, 0⟩,
    ⟨[465, 471, 474, 493], 0xccb99732e65cca00000000cc800000000, 0⟩,
    ⟨[470, 473, 510, 639], 0x18db1b63600000000000, 64⟩,
    ⟨[467, 470, 473, 490, 510, 621, 624, 639], 0x568000000000000000000000000199b3366600159800000, 64⟩,
    ⟨[134, 422, 873], 0x70200000000000000000000000000000000000000000, 0⟩,
    ⟨[422], 0x8ae00000000000000000000000000000000000000000, 0⟩,
    ⟨[604, 613], 0x333800, 0⟩,
    ⟨[60, 74, 80, 84, 86, 111, 115, 129, 135, 139, 141, 166, 348, 362, 368, 372, 374, 399, 403, 417, 423, 427, 429, 454, 601, 610, 854, 868, 874, 878, 880, 905], 0x33566a00000000000cd200334000, 0⟩,
    ⟨[607, 616], 0x19af35e6b00000000000, 0⟩,
    ⟨[351, 376, 406, 431, 727], 0x1800323000, 0⟩,
    ⟨[355, 361, 364, 383, 410, 416, 419, 438, 725, 730, 731], 0x3807000cdb9b736e6dcda00000000cd800006000, 3⟩,
    ⟨[360, 363, 400, 415, 418, 455, 637, 638, 726], 0x180300600c000000000000000000000000178ef1de300009400000, 65⟩,
    ⟨[357, 360, 363, 380, 400, 412, 415, 418, 435, 455, 603, 606, 612, 615, 637, 638, 726], 0x180300646800000000000000000000000019bb3766e00119800000, 65⟩,
    ⟨[359, 360, 363, 398, 400, 414, 415, 418, 453, 455, 603, 606, 612, 615, 637, 638, 726], 0x180300646800000000000000000000000019bf37e6f00119800000, 65⟩,
    ⟨[359, 360, 363, 398, 400, 414, 415, 418, 453, 455, 603, 606, 612, 615, 637, 638], 0x64300000000000000000000000019c33867000190400000, 65⟩,
    ⟨[116, 117, 120, 121, 142, 144, 149, 167, 296, 404, 405, 408, 409, 430, 432, 437, 455, 638, 726, 789, 803, 804, 806, 808, 813, 820, 855, 856, 859, 860, 881, 883, 888, 906, 910, 1089], 0x183a8755e7000000000000000000000000179af35e6000f1400000, 36⟩,
    ⟨[119, 123, 145, 146, 407, 411, 433, 434, 611, 725, 730, 731, 790, 801, 802, 858, 862, 884, 885], 0x20c24800106124418491060000000004e002f4000, 3⟩,
    ⟨[119, 123, 145, 146, 407, 411, 433, 434, 611, 725, 730, 731, 792, 801, 802, 858, 862, 884, 885], 0x3a0070001d00387400e1d00000000004e002f4000, 3⟩,
    ⟨[79, 367], 0x7c800000000000000000000000000000000000000000, 0⟩,
    ⟨[349, 350, 353, 354, 375, 377, 382], 0x62900000000000000000000000018a31462800189c00000, 0⟩,
    ⟨[63, 88, 351, 376, 857, 882], 0x328800, 0⟩,
    ⟨[67, 73, 76, 95, 355, 361, 364, 383, 861, 867, 870, 889], 0xce59cb39672ce400000000ce200000000, 0⟩,
    ⟨[72, 75, 112, 295, 360, 363, 400, 637, 866, 869, 906, 910], 0x194b2965200000000000, 42⟩,
    ⟨[60, 84, 86, 348, 372, 374, 601, 854, 878, 880], 0x3136260000000000000000339800, 0⟩,
    ⟨[60, 83, 84, 86, 348, 371, 372, 374, 601, 854, 877, 878, 880], 0xa8200000000000003136260000000000000000339800, 0⟩,
    ⟨[69, 72, 75, 92, 112, 295, 357, 360, 363, 380, 400, 603, 606, 637, 863, 866, 869, 886, 906, 910], 0x53800000000000000000000000019d33a6740014d800000, 42⟩,
    ⟨[365, 366], 0x6220019d4000000000000000000000000000, 0⟩,
    ⟨[348, 362, 368, 372, 374, 384, 601], 0x2f9df300000000000be0002f9000, 0⟩,
    ⟨[348, 362, 368, 372, 374, 381, 601], 0x2f9df300000000000be0002f9000, 0⟩,
    ⟨[622, 631], 0x33b000, 0⟩,
    ⟨[170, 184, 190, 194, 196, 221, 236, 250, 256, 260, 262, 287, 458, 472, 478, 482, 484, 509, 524, 538, 544, 548, 550, 575, 619, 628], 0x33ce7900000000000cf00033b800, 0⟩,
    ⟨[625, 634], 0x19eb3d67a00000000000, 0⟩,
    ⟨[461, 486, 527, 552, 727], 0x180032e800, 0⟩,
    ⟨[465, 471, 474, 493, 531, 537, 540, 559, 725, 730, 731], 0x3807000cf99f33e67ccf800000000cf600006000, 3⟩,
    ⟨[470, 473, 510, 536, 539, 576, 580, 639, 640, 726], 0x180300600c00000000000000000000000017d6fadf500009400000, 66⟩,
    ⟨[467, 470, 473, 490, 510, 533, 536, 539, 556, 576, 580, 621, 624, 630, 633, 639, 640, 726], 0x18030064d900000000000000000000000019f73ee7d00135c00000, 66⟩,
    ⟨[469, 470, 473, 508, 510, 535, 536, 539, 574, 576, 580, 621, 624, 630, 633, 639, 640, 726], 0x18030064d900000000000000000000000019fb3f67e00135c00000, 66⟩,
    ⟨[469, 470, 473, 508, 510, 535, 536, 539, 574, 576, 580, 621, 624, 630, 633, 639, 640], 0x65a00000000000000000000000019ff3fe7f00196000000, 66⟩,
    ⟨[189, 477], 0x86800000000000000000000000000000000000000000, 0⟩,
    ⟨[459, 460, 463, 464, 485, 487, 492], 0x63d00000000000000000000000018f31e63c0018ec00000, 0⟩,
    ⟨[543], 0xb7e00000000000000000000000000000000000000000, 0⟩,
    ⟨[475, 476], 0x636001a00000000000000000000000000000, 0⟩,
    ⟨[458, 472, 478, 482, 484, 494, 619], 0x30660c00000000000c0800305800, 0⟩,
    ⟨[458, 472, 478, 482, 484, 491, 619], 0x30660c00000000000c0800305800, 0⟩,
    ⟨[605, 614], 0x19af35e6b00000000000, 0⟩,
    ⟨[61, 62, 65, 66, 87, 89, 94, 112, 116, 117, 120, 121, 142, 144, 149, 167, 295, 296, 349, 350, 353, 354, 375, 377, 382, 400, 404, 405, 408, 409, 430, 432, 437, 455, 637, 638, 855, 856, 859, 860, 881, 883, 888, 906, 910], 0x6830000000000000000000000001a0b41682001a0400000, 55⟩,
    ⟨[81, 82, 136, 137, 369, 370, 424, 425, 875, 876], 0xd09a1342e84d09a1742684d080000000000000000000, 0⟩,
    ⟨[64, 68, 90, 91, 119, 123, 145, 146, 352, 356, 378, 379, 407, 411, 433, 434, 602, 611, 858, 862, 884, 885], 0x343000, 0⟩,
    ⟨[362, 368, 417, 423, 608, 617], 0xd0e00000000, 0⟩,
    ⟨[365, 366, 420, 421, 728], 0x270180000000001c038075e301da200700e01c0000000000009400000, 0⟩,
    ⟨[348, 362, 368, 372, 374, 384, 403, 417, 423, 427, 429, 439, 601, 610, 725, 730, 731], 0x380700001c03b0c61801c00000000b2e00344800, 3⟩,
    ⟨[348, 362, 368, 372, 374, 381, 403, 417, 423, 427, 429, 436, 601, 610, 725, 730, 731], 0x380700001c03b0c61801c00000000b2e00344800, 3⟩,
    ⟨[348, 362, 368, 372, 374, 399, 403, 417, 423, 427, 429, 454, 601, 610, 725, 730, 731], 0x380700001c03b0c61801c00000000b2e00344800, 3⟩,
    ⟨[348, 362, 368, 372, 374, 399, 403, 417, 423, 427, 429, 454, 601, 610], 0x345e8b00000000000d0e00345000, 0⟩,
    ⟨[77, 78, 365, 366, 871, 872], 0x652001a30000000000000000000000000000, 0⟩,
    ⟨[60, 74, 80, 84, 86, 96, 348, 362, 368, 372, 374, 384, 601, 854, 868, 874, 878, 880, 890], 0x31362600000000000c4a00312000, 0⟩,
    ⟨[61, 62, 65, 66, 87, 89, 94, 349, 350, 353, 354, 375, 377, 382, 855, 856, 859, 860, 881, 883, 888], 0x65100000000000000000000000019432865000193c00000, 0⟩,
    ⟨[60, 74, 80, 84, 86, 93, 348, 362, 368, 372, 374, 381, 601, 854, 868, 874, 878, 880, 887], 0x31362600000000000c4a00312000, 0⟩,
    ⟨[367], 0x95a00000000000000000000000000000000000000000, 0⟩,
    ⟨[623, 632], 0x19eb3d67a00000000000, 0⟩,
    ⟨[171, 172, 175, 176, 197, 199, 204, 222, 237, 238, 241, 242, 263, 265, 270, 288, 292, 297, 298, 459, 460, 463, 464, 485, 487, 492, 510, 525, 526, 529, 530, 551, 553, 558, 576, 580, 639, 640], 0x68f0000000000000000000000001a3b4768e001a3400000, 45⟩,
    ⟨[191, 192, 257, 258, 479, 480, 545, 546], 0xd21a4348e90d21a4748690d200000000000000000000, 0⟩,
    ⟨[174, 178, 200, 201, 240, 244, 266, 267, 462, 466, 488, 489, 528, 532, 554, 555, 620, 629], 0x349000, 0⟩,
    ⟨[472, 478, 538, 544, 626, 635], 0xd2600000000, 0⟩,
    ⟨[475, 476, 541, 542, 728], 0x270180000000001c038075f501da500700e01c0000000000009400000, 0⟩,
    ⟨[458, 472, 478, 482, 484, 494, 524, 538, 544, 548, 550, 560, 619, 628, 725, 730, 731], 0x380700001c03b16e2d01c00000000b620034a800, 3⟩,
    ⟨[458, 472, 478, 482, 484, 491, 524, 538, 544, 548, 550, 557, 619, 628, 725, 730, 731], 0x380700001c03b16e2d01c00000000b620034a800, 3⟩,
    ⟨[458, 472, 478, 482, 484, 509, 524, 538, 544, 548, 550, 575, 619, 628, 725, 730, 731], 0x380700001c03b16e2d01c00000000b620034a800, 3⟩,
    ⟨[458, 472, 478, 482, 484, 509, 524, 538, 544, 548, 550, 575, 619, 628], 0x34be9700000000000d260034b000, 0⟩,
    ⟨[477], 0x9de00000000000000000000000000000000000000000, 0⟩,
    ⟨[63, 88, 118, 143, 351, 376, 406, 431, 857, 882], 0x341800, 0⟩,
    ⟨[67, 73, 76, 95, 122, 128, 131, 150, 355, 361, 364, 383, 410, 416, 419, 438, 861, 867, 870, 889], 0xd33a674ce99d3200000000d3000000000, 0⟩,
    ⟨[72, 75, 112, 127, 130, 167, 295, 296, 360, 363, 400, 415, 418, 455, 637, 638, 866, 869, 906, 910], 0x1a134268400000000000, 55⟩,
    ⟨[60, 84, 86, 115, 139, 141, 348, 372, 374, 403, 427, 429, 601, 610, 854, 878, 880], 0x33566a000000000000000034d000, 0⟩,
    ⟨[60, 83, 84, 86, 115, 138, 139, 141, 348, 371, 372, 374, 403, 426, 427, 429, 601, 610, 854, 877, 878, 880], 0xbc4000000000000033566a000000000000000034d000, 0⟩,
    ⟨[69, 72, 75, 92, 112, 124, 127, 130, 147, 167, 295, 296, 357, 360, 363, 380, 400, 412, 415, 418, 435, 455, 603, 606, 612, 615, 637, 638, 863, 866, 869, 886, 906, 910], 0x6430000000000000000000000001a6f4de9b00190400000, 55⟩,
    ⟨[369, 370, 424, 425], 0xd39a734ee9cd39a774e69cd380000000000000000000, 0⟩,
    ⟨[367, 422, 725, 729, 730, 731], 0xc320380700001c0380700e01c0000000004e00006000, 3⟩,
    ⟨[349, 350, 353, 354, 375, 377, 382, 400, 404, 405, 408, 409, 430, 432, 437, 455, 637, 638, 726], 0x1803006646000000000000000000000000191722e4500191000000, 65⟩,
    ⟨[349, 350, 353, 354, 375, 377, 382, 400, 404, 405, 408, 409, 430, 432, 437, 455, 637, 638], 0x6a00000000000000000000000001a7f4fe9f001a7800000, 65⟩,
    ⟨[352, 356, 378, 379, 407, 411, 433, 434, 602, 611], 0x350800, 0⟩,
    ⟨[79, 367, 873], 0xa8200000000000000000000000000000000000000000, 0⟩,
    ⟨[173, 198, 239, 264, 461, 486, 527, 552], 0x347800, 0⟩,
    ⟨[177, 183, 186, 205, 243, 249, 252, 271, 465, 471, 474, 493, 531, 537, 540, 559], 0xd47a8f51ea3d4600000000d4400000000, 0⟩,
    ⟨[182, 185, 222, 248, 251, 288, 292, 297, 298, 470, 473, 510, 536, 539, 576, 580, 639, 640], 0x1a434869000000000000, 45⟩,
    ⟨[170, 194, 196, 236, 260, 262, 458, 482, 484, 524, 548, 550, 619, 628], 0x33ce790000000000000000352000, 0⟩,
    ⟨[170, 193, 194, 196, 236, 259, 260, 262, 458, 481, 482, 484, 524, 547, 548, 550, 619, 628], 0xbe8000000000000033ce790000000000000000352000, 0⟩,
    ⟨[179, 182, 185, 202, 222, 245, 248, 251, 268, 288, 292, 297, 298, 467, 470, 473, 490, 510, 533, 536, 539, 556, 576, 580, 621, 624, 630, 633, 639, 640], 0x65a0000000000000000000000001a9752ea500196000000, 45⟩,
    ⟨[479, 480, 545, 546], 0xd4da9b53ea6d4da9f536a6d4c0000000000000000000, 0⟩,
    ⟨[477, 543, 725, 729, 730, 731], 0xc5c0380700001c0380700e01c0000000004e00006000, 3⟩,
    ⟨[459, 460, 463, 464, 485, 487, 492, 510, 525, 526, 529, 530, 551, 553, 558, 576, 580, 639, 640, 726], 0x180300665d00000000000000000000000019732e65c00196c00000, 66⟩,
    ⟨[459, 460, 463, 464, 485, 487, 492, 510, 525, 526, 529, 530, 551, 553, 558, 576, 580, 639, 640], 0x6aa0000000000000000000000001aa754ea9001aa000000, 66⟩,
    ⟨[462, 466, 488, 489, 528, 532, 554, 555, 620, 629], 0x355800, 0⟩,
    ⟨[77, 78, 132, 133, 365, 366, 420, 421, 871, 872], 0x684001ab0000000000000000000000000000, 0⟩,
    ⟨[60, 74, 80, 84, 86, 96, 115, 129, 135, 139, 141, 151, 348, 362, 368, 372, 374, 384, 403, 417, 423, 427, 429, 439, 601, 610, 854, 868, 874, 878, 880, 890], 0x33566a00000000000cd200334000, 0⟩,
    ⟨[61, 62, 65, 66, 87, 89, 94, 116, 117, 120, 121, 142, 144, 149, 349, 350, 353, 354, 375, 377, 382, 404, 405, 408, 409, 430, 432, 437, 855, 856, 859, 860, 881, 883, 888], 0x6830000000000000000000000001a0b41682001a0400000, 0⟩,
    ⟨[60, 74, 80, 84, 86, 93, 115, 129, 135, 139, 141, 148, 348, 362, 368, 372, 374, 381, 403, 417, 423, 427, 429, 436, 601, 610, 854, 868, 874, 878, 880, 887], 0x33566a00000000000cd200334000, 0⟩,
    ⟨[348, 372, 374, 403, 427, 429, 601, 610], 0x345e8b0000000000000000356800, 0⟩,
    ⟨[348, 371, 372, 374, 403, 426, 427, 429, 601, 610], 0xc340000000000000345e8b0000000000000000356800, 0⟩,
    ⟨[351, 376, 406, 431], 0x350000, 0⟩,
    ⟨[355, 361, 364, 383, 410, 416, 419, 438], 0xd5fabf57eafd5e00000000d5c00000000, 0⟩,
    ⟨[360, 363, 400, 415, 418, 455, 637, 638], 0x1a734e69c00000000000, 65⟩,
    ⟨[357, 360, 363, 380, 400, 412, 415, 418, 435, 455, 603, 606, 612, 615, 637, 638], 0x6430000000000000000000000001ac3586b000190400000, 65⟩,
    ⟨[187, 188, 253, 254, 475, 476, 541, 542], 0x690001ac4000000000000000000000000000, 0⟩,
    ⟨[170, 184, 190, 194, 196, 206, 236, 250, 256, 260, 262, 272, 458, 472, 478, 482, 484, 494, 524, 538, 544, 548, 550, 560, 619, 628], 0x33ce7900000000000cf00033b800, 0⟩,
    ⟨[171, 172, 175, 176, 197, 199, 204, 237, 238, 241, 242, 263, 265, 270, 459, 460, 463, 464, 485, 487, 492, 525, 526, 529, 530, 551, 553, 558], 0x68f0000000000000000000000001a3b4768e001a3400000, 0⟩,
    ⟨[170, 184, 190, 194, 196, 203, 236, 250, 256, 260, 262, 269, 458, 472, 478, 482, 484, 491, 524, 538, 544, 548, 550, 557, 619, 628], 0x33ce7900000000000cf00033b800, 0⟩,
    ⟨[458, 482, 484, 524, 548, 550, 619, 628], 0x34be970000000000000000359000, 0⟩,
    ⟨[458, 481, 482, 484, 524, 547, 548, 550, 619, 628], 0xc5e000000000000034be970000000000000000359000, 0⟩,
    ⟨[461, 486, 527, 552], 0x355000, 0⟩,
    ⟨[465, 471, 474, 493, 531, 537, 540, 559], 0xd69ad35a6b4d6800000000d6600000000, 0⟩,
    ⟨[470, 473, 510, 536, 539, 576, 580, 639, 640], 0x1a9b536a600000000000, 66⟩,
    ⟨[467, 470, 473, 490, 510, 533, 536, 539, 556, 576, 580, 621, 624, 630, 633, 639, 640], 0x65a0000000000000000000000001ad75aeb500196000000, 66⟩,
    ⟨[79, 134, 367, 422, 873], 0xbc400000000000000000000000000000000000000000, 0⟩,
    ⟨[349, 350, 353, 354, 375, 377, 382, 404, 405, 408, 409, 430, 432, 437], 0x6a00000000000000000000000001a7f4fe9f001a7800000, 0⟩,
    ⟨[365, 366, 420, 421], 0x69c001ad8000000000000000000000000000, 0⟩,
    ⟨[348, 362, 368, 372, 374, 384, 403, 417, 423, 427, 429, 439, 601, 610], 0x345e8b00000000000d0e00345000, 0⟩,
    ⟨[348, 362, 368, 372, 374, 381, 403, 417, 423, 427, 429, 436, 601, 610], 0x345e8b00000000000d0e00345000, 0⟩,
    ⟨[189, 255, 477, 543], 0xbe800000000000000000000000000000000000000000, 0⟩,
    ⟨[459, 460, 463, 464, 485, 487, 492, 525, 526, 529, 530, 551, 553, 558], 0x6aa0000000000000000000000001aa754ea9001aa000000, 0⟩,
    ⟨[475, 476, 541, 542], 0x6a6001adc000000000000000000000000000, 0⟩,
    ⟨[458, 472, 478, 482, 484, 494, 524, 538, 544, 548, 550, 560, 619, 628], 0x34be9700000000000d260034b000, 0⟩,
    ⟨[458, 472, 478, 482, 484, 491, 524, 538, 544, 548, 550, 557, 619, 628], 0x34be9700000000000d260034b000, 0⟩,
    ⟨[367, 422], 0xc3400000000000000000000000000000000000000000, 0⟩,
    ⟨[477, 543], 0xc5e00000000000000000000000000000000000000000, 0⟩]

theorem morf_graphOk : morfCert.graphOk morfNfa 1093 5 11 = true := by decide +kernel

theorem morf_namesOk : morfCert.namesOk morfNfa 1093 11 = true := by decide +kernel

theorem morf_certOk : CertOk morfCert morfNfa 1093 := cert_ok morf_graphOk morf_namesOk

end Jbo.Morf
