/- Generated by tools/gen_tables.py from the C sources; do not edit. -/
namespace Verif

/-- `ascii_to_ebcdic[128]`, src/device/xlat.c 29-62. -/
def asciiToEbcdicTab : List Nat := [
  0x1, 0x2, 0x3, 0xff, 0x0, 0x0, 0x0, 0x0,
  0x0, 0x0, 0x0, 0x0, 0x0, 0x0, 0x0, 0x0,
  0x0, 0x0, 0x0, 0x0, 0x0, 0x0, 0x0, 0x0,
  0x0, 0x0, 0x0, 0x0, 0x0, 0x0, 0x0, 0x0,
  0x40, 0x5a, 0x7f, 0x7b, 0x5b, 0x6c, 0x50, 0x7d,
  0x4d, 0x5d, 0x5c, 0x4e, 0x6b, 0x60, 0x4b, 0x61,
  0xf0, 0xf1, 0xf2, 0xf3, 0xf4, 0xf5, 0xf6, 0xf7,
  0xf8, 0xf9, 0x7a, 0x5e, 0x4c, 0x7e, 0x6e, 0x6f,
  0x7c, 0xc1, 0xc2, 0xc3, 0xc4, 0xc5, 0xc6, 0xc7,
  0xc8, 0xc9, 0xd1, 0xd2, 0xd3, 0xd4, 0xd5, 0xd6,
  0xd7, 0xd8, 0xd9, 0xe2, 0xe3, 0xe4, 0xe5, 0xe6,
  0xe7, 0xe8, 0xe9, 0xff, 0xe0, 0xff, 0x5f, 0x6d,
  0x79, 0x81, 0x82, 0x83, 0x84, 0x85, 0x86, 0x87,
  0x88, 0x89, 0x91, 0x92, 0x93, 0x94, 0x95, 0x96,
  0x97, 0x98, 0x99, 0xa2, 0xa3, 0xa4, 0xa5, 0xa6,
  0xa7, 0xa8, 0xa9, 0xc0, 0x47, 0xd0, 0xa1, 0x6d
]

/-- `ebcdic_to_ascii[256]`, src/device/xlat.c 64-98. -/
def ebcdicToAsciiTab : List Nat := [
  0x0, 0x1, 0x2, 0x3, 0xff, 0x9, 0x0, 0x7f,
  0xff, 0xff, 0xff, 0xb, 0xc, 0xd, 0xe, 0xf,
  0x10, 0x11, 0x12, 0x19, 0xa, 0x8, 0x8, 0xff,
  0x18, 0xff, 0xff, 0xff, 0xff, 0xff, 0xff, 0xff,
  0xff, 0xff, 0x1c, 0xff, 0xff, 0xa, 0xff, 0xff,
  0xff, 0xff, 0xff, 0xff, 0xff, 0x5, 0x6, 0x7,
  0xff, 0xff, 0xff, 0xff, 0xff, 0x1e, 0x0, 0xff,
  0xff, 0xff, 0xff, 0xff, 0x14, 0x15, 0xff, 0xff,
  0x20, 0xff, 0xff, 0xff, 0xff, 0xff, 0xff, 0xff,
  0xff, 0xff, 0x5b, 0x2e, 0x3c, 0x28, 0x2b, 0x7c,
  0x26, 0xff, 0xff, 0xff, 0xff, 0xff, 0xff, 0xff,
  0xff, 0xff, 0x21, 0x24, 0x2a, 0x29, 0x3b, 0x5e,
  0x2d, 0x2f, 0xff, 0xff, 0xff, 0xff, 0xff, 0xff,
  0xff, 0xff, 0xff, 0x2c, 0x25, 0x5f, 0x3e, 0x3f,
  0xff, 0xff, 0xff, 0xff, 0xff, 0xff, 0xff, 0xff,
  0xff, 0x60, 0x3a, 0x23, 0x40, 0x27, 0x3d, 0x22,
  0xff, 0x61, 0x62, 0x63, 0x64, 0x65, 0x66, 0x67,
  0x68, 0x69, 0xff, 0xff, 0xff, 0xff, 0xff, 0xff,
  0xff, 0x6a, 0x6b, 0x6c, 0x6d, 0x6e, 0x6f, 0x70,
  0x71, 0x72, 0xff, 0xff, 0xff, 0xff, 0xff, 0xff,
  0xff, 0x7e, 0x73, 0x74, 0x75, 0x76, 0x77, 0x78,
  0x79, 0x7a, 0xff, 0xff, 0xff, 0xff, 0xff, 0xff,
  0xff, 0xff, 0xff, 0xff, 0xff, 0xff, 0xff, 0xff,
  0xff, 0xff, 0xff, 0xff, 0xff, 0xff, 0xff, 0xff,
  0x7b, 0x41, 0x42, 0x43, 0x44, 0x45, 0x46, 0x47,
  0x48, 0x49, 0xff, 0xff, 0xff, 0xff, 0xff, 0xff,
  0x7d, 0x4a, 0x4b, 0x4c, 0x4d, 0x4e, 0x4f, 0x50,
  0x51, 0x52, 0xff, 0xff, 0xff, 0xff, 0xff, 0xff,
  0x5c, 0xff, 0x53, 0x54, 0x55, 0x56, 0x57, 0x58,
  0x59, 0x5a, 0xff, 0xff, 0xff, 0xff, 0xff, 0xff,
  0x30, 0x31, 0x32, 0x33, 0x34, 0x35, 0x36, 0x37,
  0x38, 0x39, 0xff, 0xff, 0xff, 0xff, 0xff, 0xff
]

/-- `odd_parity[256]`, src/device/xlat.c 100-134. -/
def oddParityTab : List Nat := [
  0x100, 0x0, 0x0, 0x100, 0x0, 0x100, 0x100, 0x0,
  0x0, 0x100, 0x100, 0x0, 0x100, 0x0, 0x0, 0x100,
  0x0, 0x100, 0x100, 0x0, 0x100, 0x0, 0x0, 0x100,
  0x100, 0x0, 0x0, 0x100, 0x0, 0x100, 0x100, 0x0,
  0x0, 0x100, 0x100, 0x0, 0x100, 0x0, 0x0, 0x100,
  0x100, 0x0, 0x0, 0x100, 0x0, 0x100, 0x100, 0x0,
  0x100, 0x0, 0x0, 0x100, 0x0, 0x100, 0x100, 0x0,
  0x0, 0x100, 0x100, 0x0, 0x100, 0x0, 0x0, 0x100,
  0x0, 0x100, 0x100, 0x0, 0x100, 0x0, 0x0, 0x100,
  0x100, 0x0, 0x0, 0x100, 0x0, 0x100, 0x100, 0x0,
  0x100, 0x0, 0x0, 0x100, 0x0, 0x100, 0x100, 0x0,
  0x0, 0x100, 0x100, 0x0, 0x100, 0x0, 0x0, 0x100,
  0x100, 0x0, 0x0, 0x100, 0x0, 0x100, 0x100, 0x0,
  0x0, 0x100, 0x100, 0x0, 0x100, 0x0, 0x0, 0x100,
  0x0, 0x100, 0x100, 0x0, 0x100, 0x0, 0x0, 0x100,
  0x100, 0x0, 0x0, 0x100, 0x0, 0x100, 0x100, 0x0,
  0x0, 0x100, 0x100, 0x0, 0x100, 0x0, 0x0, 0x100,
  0x100, 0x0, 0x0, 0x100, 0x0, 0x100, 0x100, 0x0,
  0x100, 0x0, 0x0, 0x100, 0x0, 0x100, 0x100, 0x0,
  0x0, 0x100, 0x100, 0x0, 0x100, 0x0, 0x0, 0x100,
  0x100, 0x0, 0x0, 0x100, 0x0, 0x100, 0x100, 0x0,
  0x0, 0x100, 0x100, 0x0, 0x100, 0x0, 0x0, 0x100,
  0x0, 0x100, 0x100, 0x0, 0x100, 0x0, 0x0, 0x100,
  0x100, 0x0, 0x0, 0x100, 0x0, 0x100, 0x100, 0x0,
  0x100, 0x0, 0x0, 0x100, 0x0, 0x100, 0x100, 0x0,
  0x0, 0x100, 0x100, 0x0, 0x100, 0x0, 0x0, 0x100,
  0x0, 0x100, 0x100, 0x0, 0x100, 0x0, 0x0, 0x100,
  0x100, 0x0, 0x0, 0x100, 0x0, 0x100, 0x100, 0x0,
  0x0, 0x100, 0x100, 0x0, 0x100, 0x0, 0x0, 0x100,
  0x100, 0x0, 0x0, 0x100, 0x0, 0x100, 0x100, 0x0,
  0x100, 0x0, 0x0, 0x100, 0x0, 0x100, 0x100, 0x0,
  0x0, 0x100, 0x100, 0x0, 0x100, 0x0, 0x0, 0x100
]

/-- `parity_table[64]`, src/device/xlat.c 136-146. -/
def parityTab : List Nat := [
  0x0, 0x40, 0x40, 0x0, 0x40, 0x0, 0x0, 0x40,
  0x40, 0x0, 0x0, 0x40, 0x0, 0x40, 0x40, 0x0,
  0x40, 0x0, 0x0, 0x40, 0x0, 0x40, 0x40, 0x0,
  0x0, 0x40, 0x40, 0x0, 0x40, 0x0, 0x0, 0x40,
  0x40, 0x0, 0x0, 0x40, 0x0, 0x40, 0x40, 0x0,
  0x0, 0x40, 0x40, 0x0, 0x40, 0x0, 0x0, 0x40,
  0x0, 0x40, 0x40, 0x0, 0x40, 0x0, 0x0, 0x40,
  0x40, 0x0, 0x0, 0x40, 0x0, 0x40, 0x40, 0x0
]

/-- `bcd_to_ebcdic[64]`, src/device/xlat.c 148-157. -/
def bcdToEbcdicTab : List Nat := [
  0x40, 0xf1, 0xf2, 0xf3, 0xf4, 0xf5, 0xf6, 0xf7,
  0xf8, 0xf9, 0xf0, 0x7b, 0x7c, 0x7d, 0x7e, 0x7f,
  0x7a, 0x61, 0xe2, 0xe3, 0xe4, 0xe5, 0xe6, 0xe7,
  0xe8, 0xe9, 0xe0, 0x6b, 0x6c, 0x6d, 0x6e, 0x6f,
  0x60, 0xd1, 0xd2, 0xd3, 0xd4, 0xd5, 0xd6, 0xd7,
  0xd8, 0xd9, 0xd0, 0x5b, 0x5c, 0x5d, 0x5e, 0x5f,
  0x50, 0xc1, 0xc2, 0xc3, 0xc4, 0xc5, 0xc6, 0xc7,
  0xc8, 0xc9, 0xc0, 0x4b, 0x4c, 0x4d, 0x4e, 0x4f
]

/-- `ascii_to_hol_029[128]`, src/device/card.c 76-118. -/
def asciiToHol029Tab : List Nat := [
  0xf000, 0xf000, 0xf000, 0xf000, 0xf000, 0xf000, 0xf000, 0xf000,
  0xf000, 0xf000, 0xf000, 0xf000, 0xf000, 0xf000, 0xf000, 0xf000,
  0xf000, 0xf000, 0xf000, 0xf000, 0xf000, 0xf000, 0xf000, 0xf000,
  0xf000, 0xf000, 0xf000, 0xf000, 0xf000, 0xf000, 0xf000, 0xf000,
  0x0, 0x482, 0x6, 0x42, 0x442, 0x222, 0x800, 0x12,
  0x812, 0x412, 0x422, 0x80a, 0x242, 0x400, 0x842, 0x300,
  0x200, 0x100, 0x80, 0x40, 0x20, 0x10, 0x8, 0x4,
  0x2, 0x1, 0x82, 0x40a, 0x822, 0xa, 0x20a, 0x206,
  0x22, 0x900, 0x880, 0x840, 0x820, 0x810, 0x808, 0x804,
  0x802, 0x801, 0x500, 0x480, 0x440, 0x420, 0x410, 0x408,
  0x404, 0x402, 0x401, 0x280, 0x240, 0x220, 0x210, 0x208,
  0x204, 0x202, 0x201, 0xe82, 0x282, 0xe42, 0x406, 0x212,
  0x102, 0xb00, 0xa80, 0xa40, 0xa20, 0xa10, 0xa08, 0xa04,
  0xa02, 0xa01, 0xd00, 0xc80, 0xc40, 0xc20, 0xc10, 0xc08,
  0xc04, 0xc02, 0xc01, 0x680, 0x640, 0x620, 0x610, 0x608,
  0x604, 0x602, 0x601, 0x406, 0x806, 0x805, 0xf02, 0xf000
]

/-- `ascii_to_hol_ebcdic[128]`, src/device/card.c 121-163. -/
def asciiToHolEbcdicTab : List Nat := [
  0xf000, 0xf000, 0xf000, 0xf000, 0xf000, 0xf000, 0xf000, 0xf000,
  0xf000, 0xf000, 0xf000, 0xf000, 0xf000, 0xf000, 0xf000, 0xf000,
  0xf000, 0xf000, 0xf000, 0xf000, 0xf000, 0xf000, 0xf000, 0xf000,
  0xf000, 0xf000, 0xf000, 0xf000, 0xf000, 0xf000, 0xf000, 0xf000,
  0x0, 0x482, 0x6, 0x42, 0x442, 0x222, 0x800, 0x12,
  0x812, 0x412, 0x422, 0x800, 0x242, 0x400, 0x842, 0x300,
  0x200, 0x100, 0x80, 0x40, 0x20, 0x10, 0x8, 0x4,
  0x2, 0x1, 0x82, 0x40a, 0x822, 0xa, 0x20a, 0x206,
  0x22, 0x900, 0x880, 0x840, 0x820, 0x810, 0x808, 0x804,
  0x802, 0x801, 0x500, 0x480, 0x440, 0x420, 0x410, 0x408,
  0x404, 0x402, 0x401, 0x280, 0x240, 0x220, 0x210, 0x208,
  0x204, 0x202, 0x201, 0x882, 0x20a, 0x482, 0x406, 0x212,
  0x102, 0xb00, 0xa80, 0xa40, 0xa20, 0xa10, 0xa08, 0xa04,
  0xa02, 0xa01, 0xd00, 0xc80, 0xc40, 0xc20, 0xc10, 0xc08,
  0xc04, 0xc02, 0xc01, 0x680, 0x640, 0x620, 0x610, 0x608,
  0x604, 0x602, 0x601, 0x902, 0x806, 0x502, 0xf02, 0xf000
]

/-- `ebcdic_to_hol_table[256]`, src/device/card.c 167-232. -/
def ebcdicToHolTab : List Nat := [
  0xb03, 0x901, 0x881, 0x841, 0x821, 0x811, 0x809, 0x805,
  0x803, 0x903, 0x883, 0x843, 0x823, 0x813, 0x80b, 0x807,
  0xd03, 0x501, 0x481, 0x441, 0x421, 0x411, 0x409, 0x405,
  0x403, 0x503, 0x483, 0x443, 0x423, 0x413, 0x40b, 0x407,
  0x703, 0x301, 0x281, 0x241, 0x221, 0x211, 0x209, 0x205,
  0x203, 0x303, 0x283, 0x243, 0x223, 0x213, 0x20b, 0x207,
  0xf03, 0x101, 0x81, 0x41, 0x21, 0x11, 0x9, 0x5,
  0x3, 0x103, 0x83, 0x43, 0x23, 0x13, 0xb, 0x7,
  0x0, 0xb01, 0xa81, 0xa41, 0xa21, 0xa11, 0xa09, 0xa05,
  0xa03, 0x902, 0x882, 0x842, 0x822, 0x812, 0x80a, 0x806,
  0x800, 0xd01, 0xc81, 0xc41, 0xc21, 0xc11, 0xc09, 0xc05,
  0xc03, 0x502, 0x482, 0x442, 0x422, 0x412, 0x40a, 0x406,
  0x400, 0x300, 0x681, 0x641, 0x621, 0x611, 0x609, 0x605,
  0x603, 0x302, 0xc00, 0x242, 0x222, 0x212, 0x20a, 0x206,
  0xe00, 0xf01, 0xe81, 0xe41, 0xe21, 0xe11, 0xe09, 0xe05,
  0xe03, 0x102, 0x82, 0x42, 0x22, 0x12, 0xa, 0x6,
  0xb02, 0xb00, 0xa80, 0xa40, 0xa20, 0xa10, 0xa08, 0xa04,
  0xa02, 0xa01, 0xa82, 0xa42, 0xa22, 0xa12, 0xa0a, 0xa06,
  0xd02, 0xd00, 0xc80, 0xc40, 0xc20, 0xc10, 0xc08, 0xc04,
  0xc02, 0xc01, 0xc82, 0xc42, 0xc22, 0xc12, 0xc0a, 0xc06,
  0x702, 0x700, 0x680, 0x640, 0x620, 0x610, 0x608, 0x604,
  0x602, 0x601, 0x682, 0x642, 0x622, 0x612, 0x60a, 0x606,
  0xf02, 0xf00, 0xe80, 0xe40, 0xe20, 0xe10, 0xe08, 0xe04,
  0xe02, 0xe01, 0xe82, 0xe42, 0xe22, 0xe12, 0xe0a, 0xe06,
  0xa00, 0x900, 0x880, 0x840, 0x820, 0x810, 0x808, 0x804,
  0x802, 0x801, 0xa83, 0xa43, 0xa23, 0xa13, 0xa0b, 0xa07,
  0x600, 0x500, 0x480, 0x440, 0x420, 0x410, 0x408, 0x404,
  0x402, 0x401, 0xc83, 0xc43, 0xc23, 0xc13, 0xc0b, 0xc07,
  0x282, 0x701, 0x280, 0x240, 0x220, 0x210, 0x208, 0x204,
  0x202, 0x201, 0x683, 0x643, 0x623, 0x613, 0x60b, 0x607,
  0x200, 0x100, 0x80, 0x40, 0x20, 0x10, 0x8, 0x4,
  0x2, 0x1, 0xe83, 0xe43, 0xe23, 0xe13, 0xe0b, 0xe07
]

end Verif
