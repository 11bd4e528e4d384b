import Verif.Model.Tables.Props
/-! Generated by tools/gen_tables.py from /repo/runewidth/uniseg/graphemeproperties.go. -/

namespace GoTable

/-- rows 0..63 of `graphemeCodePoints` -/
def graphemeCodePoints_0 : List (Nat × Nat × Nat) := [
  (0x0000, 0x0009, prControl),
  (0x000A, 0x000A, prLF),
  (0x000B, 0x000C, prControl),
  (0x000D, 0x000D, prCR),
  (0x000E, 0x001F, prControl),
  (0x007F, 0x009F, prControl),
  (0x00A9, 0x00A9, prExtendedPictographic),
  (0x00AD, 0x00AD, prControl),
  (0x00AE, 0x00AE, prExtendedPictographic),
  (0x0300, 0x036F, prExtend),
  (0x0483, 0x0487, prExtend),
  (0x0488, 0x0489, prExtend),
  (0x0591, 0x05BD, prExtend),
  (0x05BF, 0x05BF, prExtend),
  (0x05C1, 0x05C2, prExtend),
  (0x05C4, 0x05C5, prExtend),
  (0x05C7, 0x05C7, prExtend),
  (0x0600, 0x0605, prPrepend),
  (0x0610, 0x061A, prExtend),
  (0x061C, 0x061C, prControl),
  (0x064B, 0x065F, prExtend),
  (0x0670, 0x0670, prExtend),
  (0x06D6, 0x06DC, prExtend),
  (0x06DD, 0x06DD, prPrepend),
  (0x06DF, 0x06E4, prExtend),
  (0x06E7, 0x06E8, prExtend),
  (0x06EA, 0x06ED, prExtend),
  (0x070F, 0x070F, prPrepend),
  (0x0711, 0x0711, prExtend),
  (0x0730, 0x074A, prExtend),
  (0x07A6, 0x07B0, prExtend),
  (0x07EB, 0x07F3, prExtend),
  (0x07FD, 0x07FD, prExtend),
  (0x0816, 0x0819, prExtend),
  (0x081B, 0x0823, prExtend),
  (0x0825, 0x0827, prExtend),
  (0x0829, 0x082D, prExtend),
  (0x0859, 0x085B, prExtend),
  (0x0890, 0x0891, prPrepend),
  (0x0898, 0x089F, prExtend),
  (0x08CA, 0x08E1, prExtend),
  (0x08E2, 0x08E2, prPrepend),
  (0x08E3, 0x0902, prExtend),
  (0x0903, 0x0903, prSpacingMark),
  (0x093A, 0x093A, prExtend),
  (0x093B, 0x093B, prSpacingMark),
  (0x093C, 0x093C, prExtend),
  (0x093E, 0x0940, prSpacingMark),
  (0x0941, 0x0948, prExtend),
  (0x0949, 0x094C, prSpacingMark),
  (0x094D, 0x094D, prExtend),
  (0x094E, 0x094F, prSpacingMark),
  (0x0951, 0x0957, prExtend),
  (0x0962, 0x0963, prExtend),
  (0x0981, 0x0981, prExtend),
  (0x0982, 0x0983, prSpacingMark),
  (0x09BC, 0x09BC, prExtend),
  (0x09BE, 0x09BE, prExtend),
  (0x09BF, 0x09C0, prSpacingMark),
  (0x09C1, 0x09C4, prExtend),
  (0x09C7, 0x09C8, prSpacingMark),
  (0x09CB, 0x09CC, prSpacingMark),
  (0x09CD, 0x09CD, prExtend),
  (0x09D7, 0x09D7, prExtend)]

/-- rows 64..127 of `graphemeCodePoints` -/
def graphemeCodePoints_1 : List (Nat × Nat × Nat) := [
  (0x09E2, 0x09E3, prExtend),
  (0x09FE, 0x09FE, prExtend),
  (0x0A01, 0x0A02, prExtend),
  (0x0A03, 0x0A03, prSpacingMark),
  (0x0A3C, 0x0A3C, prExtend),
  (0x0A3E, 0x0A40, prSpacingMark),
  (0x0A41, 0x0A42, prExtend),
  (0x0A47, 0x0A48, prExtend),
  (0x0A4B, 0x0A4D, prExtend),
  (0x0A51, 0x0A51, prExtend),
  (0x0A70, 0x0A71, prExtend),
  (0x0A75, 0x0A75, prExtend),
  (0x0A81, 0x0A82, prExtend),
  (0x0A83, 0x0A83, prSpacingMark),
  (0x0ABC, 0x0ABC, prExtend),
  (0x0ABE, 0x0AC0, prSpacingMark),
  (0x0AC1, 0x0AC5, prExtend),
  (0x0AC7, 0x0AC8, prExtend),
  (0x0AC9, 0x0AC9, prSpacingMark),
  (0x0ACB, 0x0ACC, prSpacingMark),
  (0x0ACD, 0x0ACD, prExtend),
  (0x0AE2, 0x0AE3, prExtend),
  (0x0AFA, 0x0AFF, prExtend),
  (0x0B01, 0x0B01, prExtend),
  (0x0B02, 0x0B03, prSpacingMark),
  (0x0B3C, 0x0B3C, prExtend),
  (0x0B3E, 0x0B3E, prExtend),
  (0x0B3F, 0x0B3F, prExtend),
  (0x0B40, 0x0B40, prSpacingMark),
  (0x0B41, 0x0B44, prExtend),
  (0x0B47, 0x0B48, prSpacingMark),
  (0x0B4B, 0x0B4C, prSpacingMark),
  (0x0B4D, 0x0B4D, prExtend),
  (0x0B55, 0x0B56, prExtend),
  (0x0B57, 0x0B57, prExtend),
  (0x0B62, 0x0B63, prExtend),
  (0x0B82, 0x0B82, prExtend),
  (0x0BBE, 0x0BBE, prExtend),
  (0x0BBF, 0x0BBF, prSpacingMark),
  (0x0BC0, 0x0BC0, prExtend),
  (0x0BC1, 0x0BC2, prSpacingMark),
  (0x0BC6, 0x0BC8, prSpacingMark),
  (0x0BCA, 0x0BCC, prSpacingMark),
  (0x0BCD, 0x0BCD, prExtend),
  (0x0BD7, 0x0BD7, prExtend),
  (0x0C00, 0x0C00, prExtend),
  (0x0C01, 0x0C03, prSpacingMark),
  (0x0C04, 0x0C04, prExtend),
  (0x0C3C, 0x0C3C, prExtend),
  (0x0C3E, 0x0C40, prExtend),
  (0x0C41, 0x0C44, prSpacingMark),
  (0x0C46, 0x0C48, prExtend),
  (0x0C4A, 0x0C4D, prExtend),
  (0x0C55, 0x0C56, prExtend),
  (0x0C62, 0x0C63, prExtend),
  (0x0C81, 0x0C81, prExtend),
  (0x0C82, 0x0C83, prSpacingMark),
  (0x0CBC, 0x0CBC, prExtend),
  (0x0CBE, 0x0CBE, prSpacingMark),
  (0x0CBF, 0x0CBF, prExtend),
  (0x0CC0, 0x0CC1, prSpacingMark),
  (0x0CC2, 0x0CC2, prExtend),
  (0x0CC3, 0x0CC4, prSpacingMark),
  (0x0CC6, 0x0CC6, prExtend)]

/-- rows 128..191 of `graphemeCodePoints` -/
def graphemeCodePoints_2 : List (Nat × Nat × Nat) := [
  (0x0CC7, 0x0CC8, prSpacingMark),
  (0x0CCA, 0x0CCB, prSpacingMark),
  (0x0CCC, 0x0CCD, prExtend),
  (0x0CD5, 0x0CD6, prExtend),
  (0x0CE2, 0x0CE3, prExtend),
  (0x0D00, 0x0D01, prExtend),
  (0x0D02, 0x0D03, prSpacingMark),
  (0x0D3B, 0x0D3C, prExtend),
  (0x0D3E, 0x0D3E, prExtend),
  (0x0D3F, 0x0D40, prSpacingMark),
  (0x0D41, 0x0D44, prExtend),
  (0x0D46, 0x0D48, prSpacingMark),
  (0x0D4A, 0x0D4C, prSpacingMark),
  (0x0D4D, 0x0D4D, prExtend),
  (0x0D4E, 0x0D4E, prPrepend),
  (0x0D57, 0x0D57, prExtend),
  (0x0D62, 0x0D63, prExtend),
  (0x0D81, 0x0D81, prExtend),
  (0x0D82, 0x0D83, prSpacingMark),
  (0x0DCA, 0x0DCA, prExtend),
  (0x0DCF, 0x0DCF, prExtend),
  (0x0DD0, 0x0DD1, prSpacingMark),
  (0x0DD2, 0x0DD4, prExtend),
  (0x0DD6, 0x0DD6, prExtend),
  (0x0DD8, 0x0DDE, prSpacingMark),
  (0x0DDF, 0x0DDF, prExtend),
  (0x0DF2, 0x0DF3, prSpacingMark),
  (0x0E31, 0x0E31, prExtend),
  (0x0E33, 0x0E33, prSpacingMark),
  (0x0E34, 0x0E3A, prExtend),
  (0x0E47, 0x0E4E, prExtend),
  (0x0EB1, 0x0EB1, prExtend),
  (0x0EB3, 0x0EB3, prSpacingMark),
  (0x0EB4, 0x0EBC, prExtend),
  (0x0EC8, 0x0ECD, prExtend),
  (0x0F18, 0x0F19, prExtend),
  (0x0F35, 0x0F35, prExtend),
  (0x0F37, 0x0F37, prExtend),
  (0x0F39, 0x0F39, prExtend),
  (0x0F3E, 0x0F3F, prSpacingMark),
  (0x0F71, 0x0F7E, prExtend),
  (0x0F7F, 0x0F7F, prSpacingMark),
  (0x0F80, 0x0F84, prExtend),
  (0x0F86, 0x0F87, prExtend),
  (0x0F8D, 0x0F97, prExtend),
  (0x0F99, 0x0FBC, prExtend),
  (0x0FC6, 0x0FC6, prExtend),
  (0x102D, 0x1030, prExtend),
  (0x1031, 0x1031, prSpacingMark),
  (0x1032, 0x1037, prExtend),
  (0x1039, 0x103A, prExtend),
  (0x103B, 0x103C, prSpacingMark),
  (0x103D, 0x103E, prExtend),
  (0x1056, 0x1057, prSpacingMark),
  (0x1058, 0x1059, prExtend),
  (0x105E, 0x1060, prExtend),
  (0x1071, 0x1074, prExtend),
  (0x1082, 0x1082, prExtend),
  (0x1084, 0x1084, prSpacingMark),
  (0x1085, 0x1086, prExtend),
  (0x108D, 0x108D, prExtend),
  (0x109D, 0x109D, prExtend),
  (0x1100, 0x115F, prL),
  (0x1160, 0x11A7, prV)]

/-- rows 192..255 of `graphemeCodePoints` -/
def graphemeCodePoints_3 : List (Nat × Nat × Nat) := [
  (0x11A8, 0x11FF, prT),
  (0x135D, 0x135F, prExtend),
  (0x1712, 0x1714, prExtend),
  (0x1715, 0x1715, prSpacingMark),
  (0x1732, 0x1733, prExtend),
  (0x1734, 0x1734, prSpacingMark),
  (0x1752, 0x1753, prExtend),
  (0x1772, 0x1773, prExtend),
  (0x17B4, 0x17B5, prExtend),
  (0x17B6, 0x17B6, prSpacingMark),
  (0x17B7, 0x17BD, prExtend),
  (0x17BE, 0x17C5, prSpacingMark),
  (0x17C6, 0x17C6, prExtend),
  (0x17C7, 0x17C8, prSpacingMark),
  (0x17C9, 0x17D3, prExtend),
  (0x17DD, 0x17DD, prExtend),
  (0x180B, 0x180D, prExtend),
  (0x180E, 0x180E, prControl),
  (0x180F, 0x180F, prExtend),
  (0x1885, 0x1886, prExtend),
  (0x18A9, 0x18A9, prExtend),
  (0x1920, 0x1922, prExtend),
  (0x1923, 0x1926, prSpacingMark),
  (0x1927, 0x1928, prExtend),
  (0x1929, 0x192B, prSpacingMark),
  (0x1930, 0x1931, prSpacingMark),
  (0x1932, 0x1932, prExtend),
  (0x1933, 0x1938, prSpacingMark),
  (0x1939, 0x193B, prExtend),
  (0x1A17, 0x1A18, prExtend),
  (0x1A19, 0x1A1A, prSpacingMark),
  (0x1A1B, 0x1A1B, prExtend),
  (0x1A55, 0x1A55, prSpacingMark),
  (0x1A56, 0x1A56, prExtend),
  (0x1A57, 0x1A57, prSpacingMark),
  (0x1A58, 0x1A5E, prExtend),
  (0x1A60, 0x1A60, prExtend),
  (0x1A62, 0x1A62, prExtend),
  (0x1A65, 0x1A6C, prExtend),
  (0x1A6D, 0x1A72, prSpacingMark),
  (0x1A73, 0x1A7C, prExtend),
  (0x1A7F, 0x1A7F, prExtend),
  (0x1AB0, 0x1ABD, prExtend),
  (0x1ABE, 0x1ABE, prExtend),
  (0x1ABF, 0x1ACE, prExtend),
  (0x1B00, 0x1B03, prExtend),
  (0x1B04, 0x1B04, prSpacingMark),
  (0x1B34, 0x1B34, prExtend),
  (0x1B35, 0x1B35, prExtend),
  (0x1B36, 0x1B3A, prExtend),
  (0x1B3B, 0x1B3B, prSpacingMark),
  (0x1B3C, 0x1B3C, prExtend),
  (0x1B3D, 0x1B41, prSpacingMark),
  (0x1B42, 0x1B42, prExtend),
  (0x1B43, 0x1B44, prSpacingMark),
  (0x1B6B, 0x1B73, prExtend),
  (0x1B80, 0x1B81, prExtend),
  (0x1B82, 0x1B82, prSpacingMark),
  (0x1BA1, 0x1BA1, prSpacingMark),
  (0x1BA2, 0x1BA5, prExtend),
  (0x1BA6, 0x1BA7, prSpacingMark),
  (0x1BA8, 0x1BA9, prExtend),
  (0x1BAA, 0x1BAA, prSpacingMark),
  (0x1BAB, 0x1BAD, prExtend)]

/-- rows 256..319 of `graphemeCodePoints` -/
def graphemeCodePoints_4 : List (Nat × Nat × Nat) := [
  (0x1BE6, 0x1BE6, prExtend),
  (0x1BE7, 0x1BE7, prSpacingMark),
  (0x1BE8, 0x1BE9, prExtend),
  (0x1BEA, 0x1BEC, prSpacingMark),
  (0x1BED, 0x1BED, prExtend),
  (0x1BEE, 0x1BEE, prSpacingMark),
  (0x1BEF, 0x1BF1, prExtend),
  (0x1BF2, 0x1BF3, prSpacingMark),
  (0x1C24, 0x1C2B, prSpacingMark),
  (0x1C2C, 0x1C33, prExtend),
  (0x1C34, 0x1C35, prSpacingMark),
  (0x1C36, 0x1C37, prExtend),
  (0x1CD0, 0x1CD2, prExtend),
  (0x1CD4, 0x1CE0, prExtend),
  (0x1CE1, 0x1CE1, prSpacingMark),
  (0x1CE2, 0x1CE8, prExtend),
  (0x1CED, 0x1CED, prExtend),
  (0x1CF4, 0x1CF4, prExtend),
  (0x1CF7, 0x1CF7, prSpacingMark),
  (0x1CF8, 0x1CF9, prExtend),
  (0x1DC0, 0x1DFF, prExtend),
  (0x200B, 0x200B, prControl),
  (0x200C, 0x200C, prExtend),
  (0x200D, 0x200D, prZWJ),
  (0x200E, 0x200F, prControl),
  (0x2028, 0x2028, prControl),
  (0x2029, 0x2029, prControl),
  (0x202A, 0x202E, prControl),
  (0x203C, 0x203C, prExtendedPictographic),
  (0x2049, 0x2049, prExtendedPictographic),
  (0x2060, 0x2064, prControl),
  (0x2065, 0x2065, prControl),
  (0x2066, 0x206F, prControl),
  (0x20D0, 0x20DC, prExtend),
  (0x20DD, 0x20E0, prExtend),
  (0x20E1, 0x20E1, prExtend),
  (0x20E2, 0x20E4, prExtend),
  (0x20E5, 0x20F0, prExtend),
  (0x2122, 0x2122, prExtendedPictographic),
  (0x2139, 0x2139, prExtendedPictographic),
  (0x2194, 0x2199, prExtendedPictographic),
  (0x21A9, 0x21AA, prExtendedPictographic),
  (0x231A, 0x231B, prExtendedPictographic),
  (0x2328, 0x2328, prExtendedPictographic),
  (0x2388, 0x2388, prExtendedPictographic),
  (0x23CF, 0x23CF, prExtendedPictographic),
  (0x23E9, 0x23EC, prExtendedPictographic),
  (0x23ED, 0x23EE, prExtendedPictographic),
  (0x23EF, 0x23EF, prExtendedPictographic),
  (0x23F0, 0x23F0, prExtendedPictographic),
  (0x23F1, 0x23F2, prExtendedPictographic),
  (0x23F3, 0x23F3, prExtendedPictographic),
  (0x23F8, 0x23FA, prExtendedPictographic),
  (0x24C2, 0x24C2, prExtendedPictographic),
  (0x25AA, 0x25AB, prExtendedPictographic),
  (0x25B6, 0x25B6, prExtendedPictographic),
  (0x25C0, 0x25C0, prExtendedPictographic),
  (0x25FB, 0x25FE, prExtendedPictographic),
  (0x2600, 0x2601, prExtendedPictographic),
  (0x2602, 0x2603, prExtendedPictographic),
  (0x2604, 0x2604, prExtendedPictographic),
  (0x2605, 0x2605, prExtendedPictographic),
  (0x2607, 0x260D, prExtendedPictographic),
  (0x260E, 0x260E, prExtendedPictographic)]

/-- rows 320..383 of `graphemeCodePoints` -/
def graphemeCodePoints_5 : List (Nat × Nat × Nat) := [
  (0x260F, 0x2610, prExtendedPictographic),
  (0x2611, 0x2611, prExtendedPictographic),
  (0x2612, 0x2612, prExtendedPictographic),
  (0x2614, 0x2615, prExtendedPictographic),
  (0x2616, 0x2617, prExtendedPictographic),
  (0x2618, 0x2618, prExtendedPictographic),
  (0x2619, 0x261C, prExtendedPictographic),
  (0x261D, 0x261D, prExtendedPictographic),
  (0x261E, 0x261F, prExtendedPictographic),
  (0x2620, 0x2620, prExtendedPictographic),
  (0x2621, 0x2621, prExtendedPictographic),
  (0x2622, 0x2623, prExtendedPictographic),
  (0x2624, 0x2625, prExtendedPictographic),
  (0x2626, 0x2626, prExtendedPictographic),
  (0x2627, 0x2629, prExtendedPictographic),
  (0x262A, 0x262A, prExtendedPictographic),
  (0x262B, 0x262D, prExtendedPictographic),
  (0x262E, 0x262E, prExtendedPictographic),
  (0x262F, 0x262F, prExtendedPictographic),
  (0x2630, 0x2637, prExtendedPictographic),
  (0x2638, 0x2639, prExtendedPictographic),
  (0x263A, 0x263A, prExtendedPictographic),
  (0x263B, 0x263F, prExtendedPictographic),
  (0x2640, 0x2640, prExtendedPictographic),
  (0x2641, 0x2641, prExtendedPictographic),
  (0x2642, 0x2642, prExtendedPictographic),
  (0x2643, 0x2647, prExtendedPictographic),
  (0x2648, 0x2653, prExtendedPictographic),
  (0x2654, 0x265E, prExtendedPictographic),
  (0x265F, 0x265F, prExtendedPictographic),
  (0x2660, 0x2660, prExtendedPictographic),
  (0x2661, 0x2662, prExtendedPictographic),
  (0x2663, 0x2663, prExtendedPictographic),
  (0x2664, 0x2664, prExtendedPictographic),
  (0x2665, 0x2666, prExtendedPictographic),
  (0x2667, 0x2667, prExtendedPictographic),
  (0x2668, 0x2668, prExtendedPictographic),
  (0x2669, 0x267A, prExtendedPictographic),
  (0x267B, 0x267B, prExtendedPictographic),
  (0x267C, 0x267D, prExtendedPictographic),
  (0x267E, 0x267E, prExtendedPictographic),
  (0x267F, 0x267F, prExtendedPictographic),
  (0x2680, 0x2685, prExtendedPictographic),
  (0x2690, 0x2691, prExtendedPictographic),
  (0x2692, 0x2692, prExtendedPictographic),
  (0x2693, 0x2693, prExtendedPictographic),
  (0x2694, 0x2694, prExtendedPictographic),
  (0x2695, 0x2695, prExtendedPictographic),
  (0x2696, 0x2697, prExtendedPictographic),
  (0x2698, 0x2698, prExtendedPictographic),
  (0x2699, 0x2699, prExtendedPictographic),
  (0x269A, 0x269A, prExtendedPictographic),
  (0x269B, 0x269C, prExtendedPictographic),
  (0x269D, 0x269F, prExtendedPictographic),
  (0x26A0, 0x26A1, prExtendedPictographic),
  (0x26A2, 0x26A6, prExtendedPictographic),
  (0x26A7, 0x26A7, prExtendedPictographic),
  (0x26A8, 0x26A9, prExtendedPictographic),
  (0x26AA, 0x26AB, prExtendedPictographic),
  (0x26AC, 0x26AF, prExtendedPictographic),
  (0x26B0, 0x26B1, prExtendedPictographic),
  (0x26B2, 0x26BC, prExtendedPictographic),
  (0x26BD, 0x26BE, prExtendedPictographic),
  (0x26BF, 0x26C3, prExtendedPictographic)]

/-- rows 384..447 of `graphemeCodePoints` -/
def graphemeCodePoints_6 : List (Nat × Nat × Nat) := [
  (0x26C4, 0x26C5, prExtendedPictographic),
  (0x26C6, 0x26C7, prExtendedPictographic),
  (0x26C8, 0x26C8, prExtendedPictographic),
  (0x26C9, 0x26CD, prExtendedPictographic),
  (0x26CE, 0x26CE, prExtendedPictographic),
  (0x26CF, 0x26CF, prExtendedPictographic),
  (0x26D0, 0x26D0, prExtendedPictographic),
  (0x26D1, 0x26D1, prExtendedPictographic),
  (0x26D2, 0x26D2, prExtendedPictographic),
  (0x26D3, 0x26D3, prExtendedPictographic),
  (0x26D4, 0x26D4, prExtendedPictographic),
  (0x26D5, 0x26E8, prExtendedPictographic),
  (0x26E9, 0x26E9, prExtendedPictographic),
  (0x26EA, 0x26EA, prExtendedPictographic),
  (0x26EB, 0x26EF, prExtendedPictographic),
  (0x26F0, 0x26F1, prExtendedPictographic),
  (0x26F2, 0x26F3, prExtendedPictographic),
  (0x26F4, 0x26F4, prExtendedPictographic),
  (0x26F5, 0x26F5, prExtendedPictographic),
  (0x26F6, 0x26F6, prExtendedPictographic),
  (0x26F7, 0x26F9, prExtendedPictographic),
  (0x26FA, 0x26FA, prExtendedPictographic),
  (0x26FB, 0x26FC, prExtendedPictographic),
  (0x26FD, 0x26FD, prExtendedPictographic),
  (0x26FE, 0x2701, prExtendedPictographic),
  (0x2702, 0x2702, prExtendedPictographic),
  (0x2703, 0x2704, prExtendedPictographic),
  (0x2705, 0x2705, prExtendedPictographic),
  (0x2708, 0x270C, prExtendedPictographic),
  (0x270D, 0x270D, prExtendedPictographic),
  (0x270E, 0x270E, prExtendedPictographic),
  (0x270F, 0x270F, prExtendedPictographic),
  (0x2710, 0x2711, prExtendedPictographic),
  (0x2712, 0x2712, prExtendedPictographic),
  (0x2714, 0x2714, prExtendedPictographic),
  (0x2716, 0x2716, prExtendedPictographic),
  (0x271D, 0x271D, prExtendedPictographic),
  (0x2721, 0x2721, prExtendedPictographic),
  (0x2728, 0x2728, prExtendedPictographic),
  (0x2733, 0x2734, prExtendedPictographic),
  (0x2744, 0x2744, prExtendedPictographic),
  (0x2747, 0x2747, prExtendedPictographic),
  (0x274C, 0x274C, prExtendedPictographic),
  (0x274E, 0x274E, prExtendedPictographic),
  (0x2753, 0x2755, prExtendedPictographic),
  (0x2757, 0x2757, prExtendedPictographic),
  (0x2763, 0x2763, prExtendedPictographic),
  (0x2764, 0x2764, prExtendedPictographic),
  (0x2765, 0x2767, prExtendedPictographic),
  (0x2795, 0x2797, prExtendedPictographic),
  (0x27A1, 0x27A1, prExtendedPictographic),
  (0x27B0, 0x27B0, prExtendedPictographic),
  (0x27BF, 0x27BF, prExtendedPictographic),
  (0x2934, 0x2935, prExtendedPictographic),
  (0x2B05, 0x2B07, prExtendedPictographic),
  (0x2B1B, 0x2B1C, prExtendedPictographic),
  (0x2B50, 0x2B50, prExtendedPictographic),
  (0x2B55, 0x2B55, prExtendedPictographic),
  (0x2CEF, 0x2CF1, prExtend),
  (0x2D7F, 0x2D7F, prExtend),
  (0x2DE0, 0x2DFF, prExtend),
  (0x302A, 0x302D, prExtend),
  (0x302E, 0x302F, prExtend),
  (0x3030, 0x3030, prExtendedPictographic)]

/-- rows 448..511 of `graphemeCodePoints` -/
def graphemeCodePoints_7 : List (Nat × Nat × Nat) := [
  (0x303D, 0x303D, prExtendedPictographic),
  (0x3099, 0x309A, prExtend),
  (0x3297, 0x3297, prExtendedPictographic),
  (0x3299, 0x3299, prExtendedPictographic),
  (0xA66F, 0xA66F, prExtend),
  (0xA670, 0xA672, prExtend),
  (0xA674, 0xA67D, prExtend),
  (0xA69E, 0xA69F, prExtend),
  (0xA6F0, 0xA6F1, prExtend),
  (0xA802, 0xA802, prExtend),
  (0xA806, 0xA806, prExtend),
  (0xA80B, 0xA80B, prExtend),
  (0xA823, 0xA824, prSpacingMark),
  (0xA825, 0xA826, prExtend),
  (0xA827, 0xA827, prSpacingMark),
  (0xA82C, 0xA82C, prExtend),
  (0xA880, 0xA881, prSpacingMark),
  (0xA8B4, 0xA8C3, prSpacingMark),
  (0xA8C4, 0xA8C5, prExtend),
  (0xA8E0, 0xA8F1, prExtend),
  (0xA8FF, 0xA8FF, prExtend),
  (0xA926, 0xA92D, prExtend),
  (0xA947, 0xA951, prExtend),
  (0xA952, 0xA953, prSpacingMark),
  (0xA960, 0xA97C, prL),
  (0xA980, 0xA982, prExtend),
  (0xA983, 0xA983, prSpacingMark),
  (0xA9B3, 0xA9B3, prExtend),
  (0xA9B4, 0xA9B5, prSpacingMark),
  (0xA9B6, 0xA9B9, prExtend),
  (0xA9BA, 0xA9BB, prSpacingMark),
  (0xA9BC, 0xA9BD, prExtend),
  (0xA9BE, 0xA9C0, prSpacingMark),
  (0xA9E5, 0xA9E5, prExtend),
  (0xAA29, 0xAA2E, prExtend),
  (0xAA2F, 0xAA30, prSpacingMark),
  (0xAA31, 0xAA32, prExtend),
  (0xAA33, 0xAA34, prSpacingMark),
  (0xAA35, 0xAA36, prExtend),
  (0xAA43, 0xAA43, prExtend),
  (0xAA4C, 0xAA4C, prExtend),
  (0xAA4D, 0xAA4D, prSpacingMark),
  (0xAA7C, 0xAA7C, prExtend),
  (0xAAB0, 0xAAB0, prExtend),
  (0xAAB2, 0xAAB4, prExtend),
  (0xAAB7, 0xAAB8, prExtend),
  (0xAABE, 0xAABF, prExtend),
  (0xAAC1, 0xAAC1, prExtend),
  (0xAAEB, 0xAAEB, prSpacingMark),
  (0xAAEC, 0xAAED, prExtend),
  (0xAAEE, 0xAAEF, prSpacingMark),
  (0xAAF5, 0xAAF5, prSpacingMark),
  (0xAAF6, 0xAAF6, prExtend),
  (0xABE3, 0xABE4, prSpacingMark),
  (0xABE5, 0xABE5, prExtend),
  (0xABE6, 0xABE7, prSpacingMark),
  (0xABE8, 0xABE8, prExtend),
  (0xABE9, 0xABEA, prSpacingMark),
  (0xABEC, 0xABEC, prSpacingMark),
  (0xABED, 0xABED, prExtend),
  (0xAC00, 0xAC00, prLV),
  (0xAC01, 0xAC1B, prLVT),
  (0xAC1C, 0xAC1C, prLV),
  (0xAC1D, 0xAC37, prLVT)]

/-- rows 512..575 of `graphemeCodePoints` -/
def graphemeCodePoints_8 : List (Nat × Nat × Nat) := [
  (0xAC38, 0xAC38, prLV),
  (0xAC39, 0xAC53, prLVT),
  (0xAC54, 0xAC54, prLV),
  (0xAC55, 0xAC6F, prLVT),
  (0xAC70, 0xAC70, prLV),
  (0xAC71, 0xAC8B, prLVT),
  (0xAC8C, 0xAC8C, prLV),
  (0xAC8D, 0xACA7, prLVT),
  (0xACA8, 0xACA8, prLV),
  (0xACA9, 0xACC3, prLVT),
  (0xACC4, 0xACC4, prLV),
  (0xACC5, 0xACDF, prLVT),
  (0xACE0, 0xACE0, prLV),
  (0xACE1, 0xACFB, prLVT),
  (0xACFC, 0xACFC, prLV),
  (0xACFD, 0xAD17, prLVT),
  (0xAD18, 0xAD18, prLV),
  (0xAD19, 0xAD33, prLVT),
  (0xAD34, 0xAD34, prLV),
  (0xAD35, 0xAD4F, prLVT),
  (0xAD50, 0xAD50, prLV),
  (0xAD51, 0xAD6B, prLVT),
  (0xAD6C, 0xAD6C, prLV),
  (0xAD6D, 0xAD87, prLVT),
  (0xAD88, 0xAD88, prLV),
  (0xAD89, 0xADA3, prLVT),
  (0xADA4, 0xADA4, prLV),
  (0xADA5, 0xADBF, prLVT),
  (0xADC0, 0xADC0, prLV),
  (0xADC1, 0xADDB, prLVT),
  (0xADDC, 0xADDC, prLV),
  (0xADDD, 0xADF7, prLVT),
  (0xADF8, 0xADF8, prLV),
  (0xADF9, 0xAE13, prLVT),
  (0xAE14, 0xAE14, prLV),
  (0xAE15, 0xAE2F, prLVT),
  (0xAE30, 0xAE30, prLV),
  (0xAE31, 0xAE4B, prLVT),
  (0xAE4C, 0xAE4C, prLV),
  (0xAE4D, 0xAE67, prLVT),
  (0xAE68, 0xAE68, prLV),
  (0xAE69, 0xAE83, prLVT),
  (0xAE84, 0xAE84, prLV),
  (0xAE85, 0xAE9F, prLVT),
  (0xAEA0, 0xAEA0, prLV),
  (0xAEA1, 0xAEBB, prLVT),
  (0xAEBC, 0xAEBC, prLV),
  (0xAEBD, 0xAED7, prLVT),
  (0xAED8, 0xAED8, prLV),
  (0xAED9, 0xAEF3, prLVT),
  (0xAEF4, 0xAEF4, prLV),
  (0xAEF5, 0xAF0F, prLVT),
  (0xAF10, 0xAF10, prLV),
  (0xAF11, 0xAF2B, prLVT),
  (0xAF2C, 0xAF2C, prLV),
  (0xAF2D, 0xAF47, prLVT),
  (0xAF48, 0xAF48, prLV),
  (0xAF49, 0xAF63, prLVT),
  (0xAF64, 0xAF64, prLV),
  (0xAF65, 0xAF7F, prLVT),
  (0xAF80, 0xAF80, prLV),
  (0xAF81, 0xAF9B, prLVT),
  (0xAF9C, 0xAF9C, prLV),
  (0xAF9D, 0xAFB7, prLVT)]

/-- rows 576..639 of `graphemeCodePoints` -/
def graphemeCodePoints_9 : List (Nat × Nat × Nat) := [
  (0xAFB8, 0xAFB8, prLV),
  (0xAFB9, 0xAFD3, prLVT),
  (0xAFD4, 0xAFD4, prLV),
  (0xAFD5, 0xAFEF, prLVT),
  (0xAFF0, 0xAFF0, prLV),
  (0xAFF1, 0xB00B, prLVT),
  (0xB00C, 0xB00C, prLV),
  (0xB00D, 0xB027, prLVT),
  (0xB028, 0xB028, prLV),
  (0xB029, 0xB043, prLVT),
  (0xB044, 0xB044, prLV),
  (0xB045, 0xB05F, prLVT),
  (0xB060, 0xB060, prLV),
  (0xB061, 0xB07B, prLVT),
  (0xB07C, 0xB07C, prLV),
  (0xB07D, 0xB097, prLVT),
  (0xB098, 0xB098, prLV),
  (0xB099, 0xB0B3, prLVT),
  (0xB0B4, 0xB0B4, prLV),
  (0xB0B5, 0xB0CF, prLVT),
  (0xB0D0, 0xB0D0, prLV),
  (0xB0D1, 0xB0EB, prLVT),
  (0xB0EC, 0xB0EC, prLV),
  (0xB0ED, 0xB107, prLVT),
  (0xB108, 0xB108, prLV),
  (0xB109, 0xB123, prLVT),
  (0xB124, 0xB124, prLV),
  (0xB125, 0xB13F, prLVT),
  (0xB140, 0xB140, prLV),
  (0xB141, 0xB15B, prLVT),
  (0xB15C, 0xB15C, prLV),
  (0xB15D, 0xB177, prLVT),
  (0xB178, 0xB178, prLV),
  (0xB179, 0xB193, prLVT),
  (0xB194, 0xB194, prLV),
  (0xB195, 0xB1AF, prLVT),
  (0xB1B0, 0xB1B0, prLV),
  (0xB1B1, 0xB1CB, prLVT),
  (0xB1CC, 0xB1CC, prLV),
  (0xB1CD, 0xB1E7, prLVT),
  (0xB1E8, 0xB1E8, prLV),
  (0xB1E9, 0xB203, prLVT),
  (0xB204, 0xB204, prLV),
  (0xB205, 0xB21F, prLVT),
  (0xB220, 0xB220, prLV),
  (0xB221, 0xB23B, prLVT),
  (0xB23C, 0xB23C, prLV),
  (0xB23D, 0xB257, prLVT),
  (0xB258, 0xB258, prLV),
  (0xB259, 0xB273, prLVT),
  (0xB274, 0xB274, prLV),
  (0xB275, 0xB28F, prLVT),
  (0xB290, 0xB290, prLV),
  (0xB291, 0xB2AB, prLVT),
  (0xB2AC, 0xB2AC, prLV),
  (0xB2AD, 0xB2C7, prLVT),
  (0xB2C8, 0xB2C8, prLV),
  (0xB2C9, 0xB2E3, prLVT),
  (0xB2E4, 0xB2E4, prLV),
  (0xB2E5, 0xB2FF, prLVT),
  (0xB300, 0xB300, prLV),
  (0xB301, 0xB31B, prLVT),
  (0xB31C, 0xB31C, prLV),
  (0xB31D, 0xB337, prLVT)]

/-- rows 640..703 of `graphemeCodePoints` -/
def graphemeCodePoints_10 : List (Nat × Nat × Nat) := [
  (0xB338, 0xB338, prLV),
  (0xB339, 0xB353, prLVT),
  (0xB354, 0xB354, prLV),
  (0xB355, 0xB36F, prLVT),
  (0xB370, 0xB370, prLV),
  (0xB371, 0xB38B, prLVT),
  (0xB38C, 0xB38C, prLV),
  (0xB38D, 0xB3A7, prLVT),
  (0xB3A8, 0xB3A8, prLV),
  (0xB3A9, 0xB3C3, prLVT),
  (0xB3C4, 0xB3C4, prLV),
  (0xB3C5, 0xB3DF, prLVT),
  (0xB3E0, 0xB3E0, prLV),
  (0xB3E1, 0xB3FB, prLVT),
  (0xB3FC, 0xB3FC, prLV),
  (0xB3FD, 0xB417, prLVT),
  (0xB418, 0xB418, prLV),
  (0xB419, 0xB433, prLVT),
  (0xB434, 0xB434, prLV),
  (0xB435, 0xB44F, prLVT),
  (0xB450, 0xB450, prLV),
  (0xB451, 0xB46B, prLVT),
  (0xB46C, 0xB46C, prLV),
  (0xB46D, 0xB487, prLVT),
  (0xB488, 0xB488, prLV),
  (0xB489, 0xB4A3, prLVT),
  (0xB4A4, 0xB4A4, prLV),
  (0xB4A5, 0xB4BF, prLVT),
  (0xB4C0, 0xB4C0, prLV),
  (0xB4C1, 0xB4DB, prLVT),
  (0xB4DC, 0xB4DC, prLV),
  (0xB4DD, 0xB4F7, prLVT),
  (0xB4F8, 0xB4F8, prLV),
  (0xB4F9, 0xB513, prLVT),
  (0xB514, 0xB514, prLV),
  (0xB515, 0xB52F, prLVT),
  (0xB530, 0xB530, prLV),
  (0xB531, 0xB54B, prLVT),
  (0xB54C, 0xB54C, prLV),
  (0xB54D, 0xB567, prLVT),
  (0xB568, 0xB568, prLV),
  (0xB569, 0xB583, prLVT),
  (0xB584, 0xB584, prLV),
  (0xB585, 0xB59F, prLVT),
  (0xB5A0, 0xB5A0, prLV),
  (0xB5A1, 0xB5BB, prLVT),
  (0xB5BC, 0xB5BC, prLV),
  (0xB5BD, 0xB5D7, prLVT),
  (0xB5D8, 0xB5D8, prLV),
  (0xB5D9, 0xB5F3, prLVT),
  (0xB5F4, 0xB5F4, prLV),
  (0xB5F5, 0xB60F, prLVT),
  (0xB610, 0xB610, prLV),
  (0xB611, 0xB62B, prLVT),
  (0xB62C, 0xB62C, prLV),
  (0xB62D, 0xB647, prLVT),
  (0xB648, 0xB648, prLV),
  (0xB649, 0xB663, prLVT),
  (0xB664, 0xB664, prLV),
  (0xB665, 0xB67F, prLVT),
  (0xB680, 0xB680, prLV),
  (0xB681, 0xB69B, prLVT),
  (0xB69C, 0xB69C, prLV),
  (0xB69D, 0xB6B7, prLVT)]

/-- rows 704..767 of `graphemeCodePoints` -/
def graphemeCodePoints_11 : List (Nat × Nat × Nat) := [
  (0xB6B8, 0xB6B8, prLV),
  (0xB6B9, 0xB6D3, prLVT),
  (0xB6D4, 0xB6D4, prLV),
  (0xB6D5, 0xB6EF, prLVT),
  (0xB6F0, 0xB6F0, prLV),
  (0xB6F1, 0xB70B, prLVT),
  (0xB70C, 0xB70C, prLV),
  (0xB70D, 0xB727, prLVT),
  (0xB728, 0xB728, prLV),
  (0xB729, 0xB743, prLVT),
  (0xB744, 0xB744, prLV),
  (0xB745, 0xB75F, prLVT),
  (0xB760, 0xB760, prLV),
  (0xB761, 0xB77B, prLVT),
  (0xB77C, 0xB77C, prLV),
  (0xB77D, 0xB797, prLVT),
  (0xB798, 0xB798, prLV),
  (0xB799, 0xB7B3, prLVT),
  (0xB7B4, 0xB7B4, prLV),
  (0xB7B5, 0xB7CF, prLVT),
  (0xB7D0, 0xB7D0, prLV),
  (0xB7D1, 0xB7EB, prLVT),
  (0xB7EC, 0xB7EC, prLV),
  (0xB7ED, 0xB807, prLVT),
  (0xB808, 0xB808, prLV),
  (0xB809, 0xB823, prLVT),
  (0xB824, 0xB824, prLV),
  (0xB825, 0xB83F, prLVT),
  (0xB840, 0xB840, prLV),
  (0xB841, 0xB85B, prLVT),
  (0xB85C, 0xB85C, prLV),
  (0xB85D, 0xB877, prLVT),
  (0xB878, 0xB878, prLV),
  (0xB879, 0xB893, prLVT),
  (0xB894, 0xB894, prLV),
  (0xB895, 0xB8AF, prLVT),
  (0xB8B0, 0xB8B0, prLV),
  (0xB8B1, 0xB8CB, prLVT),
  (0xB8CC, 0xB8CC, prLV),
  (0xB8CD, 0xB8E7, prLVT),
  (0xB8E8, 0xB8E8, prLV),
  (0xB8E9, 0xB903, prLVT),
  (0xB904, 0xB904, prLV),
  (0xB905, 0xB91F, prLVT),
  (0xB920, 0xB920, prLV),
  (0xB921, 0xB93B, prLVT),
  (0xB93C, 0xB93C, prLV),
  (0xB93D, 0xB957, prLVT),
  (0xB958, 0xB958, prLV),
  (0xB959, 0xB973, prLVT),
  (0xB974, 0xB974, prLV),
  (0xB975, 0xB98F, prLVT),
  (0xB990, 0xB990, prLV),
  (0xB991, 0xB9AB, prLVT),
  (0xB9AC, 0xB9AC, prLV),
  (0xB9AD, 0xB9C7, prLVT),
  (0xB9C8, 0xB9C8, prLV),
  (0xB9C9, 0xB9E3, prLVT),
  (0xB9E4, 0xB9E4, prLV),
  (0xB9E5, 0xB9FF, prLVT),
  (0xBA00, 0xBA00, prLV),
  (0xBA01, 0xBA1B, prLVT),
  (0xBA1C, 0xBA1C, prLV),
  (0xBA1D, 0xBA37, prLVT)]

/-- rows 768..831 of `graphemeCodePoints` -/
def graphemeCodePoints_12 : List (Nat × Nat × Nat) := [
  (0xBA38, 0xBA38, prLV),
  (0xBA39, 0xBA53, prLVT),
  (0xBA54, 0xBA54, prLV),
  (0xBA55, 0xBA6F, prLVT),
  (0xBA70, 0xBA70, prLV),
  (0xBA71, 0xBA8B, prLVT),
  (0xBA8C, 0xBA8C, prLV),
  (0xBA8D, 0xBAA7, prLVT),
  (0xBAA8, 0xBAA8, prLV),
  (0xBAA9, 0xBAC3, prLVT),
  (0xBAC4, 0xBAC4, prLV),
  (0xBAC5, 0xBADF, prLVT),
  (0xBAE0, 0xBAE0, prLV),
  (0xBAE1, 0xBAFB, prLVT),
  (0xBAFC, 0xBAFC, prLV),
  (0xBAFD, 0xBB17, prLVT),
  (0xBB18, 0xBB18, prLV),
  (0xBB19, 0xBB33, prLVT),
  (0xBB34, 0xBB34, prLV),
  (0xBB35, 0xBB4F, prLVT),
  (0xBB50, 0xBB50, prLV),
  (0xBB51, 0xBB6B, prLVT),
  (0xBB6C, 0xBB6C, prLV),
  (0xBB6D, 0xBB87, prLVT),
  (0xBB88, 0xBB88, prLV),
  (0xBB89, 0xBBA3, prLVT),
  (0xBBA4, 0xBBA4, prLV),
  (0xBBA5, 0xBBBF, prLVT),
  (0xBBC0, 0xBBC0, prLV),
  (0xBBC1, 0xBBDB, prLVT),
  (0xBBDC, 0xBBDC, prLV),
  (0xBBDD, 0xBBF7, prLVT),
  (0xBBF8, 0xBBF8, prLV),
  (0xBBF9, 0xBC13, prLVT),
  (0xBC14, 0xBC14, prLV),
  (0xBC15, 0xBC2F, prLVT),
  (0xBC30, 0xBC30, prLV),
  (0xBC31, 0xBC4B, prLVT),
  (0xBC4C, 0xBC4C, prLV),
  (0xBC4D, 0xBC67, prLVT),
  (0xBC68, 0xBC68, prLV),
  (0xBC69, 0xBC83, prLVT),
  (0xBC84, 0xBC84, prLV),
  (0xBC85, 0xBC9F, prLVT),
  (0xBCA0, 0xBCA0, prLV),
  (0xBCA1, 0xBCBB, prLVT),
  (0xBCBC, 0xBCBC, prLV),
  (0xBCBD, 0xBCD7, prLVT),
  (0xBCD8, 0xBCD8, prLV),
  (0xBCD9, 0xBCF3, prLVT),
  (0xBCF4, 0xBCF4, prLV),
  (0xBCF5, 0xBD0F, prLVT),
  (0xBD10, 0xBD10, prLV),
  (0xBD11, 0xBD2B, prLVT),
  (0xBD2C, 0xBD2C, prLV),
  (0xBD2D, 0xBD47, prLVT),
  (0xBD48, 0xBD48, prLV),
  (0xBD49, 0xBD63, prLVT),
  (0xBD64, 0xBD64, prLV),
  (0xBD65, 0xBD7F, prLVT),
  (0xBD80, 0xBD80, prLV),
  (0xBD81, 0xBD9B, prLVT),
  (0xBD9C, 0xBD9C, prLV),
  (0xBD9D, 0xBDB7, prLVT)]

/-- rows 832..895 of `graphemeCodePoints` -/
def graphemeCodePoints_13 : List (Nat × Nat × Nat) := [
  (0xBDB8, 0xBDB8, prLV),
  (0xBDB9, 0xBDD3, prLVT),
  (0xBDD4, 0xBDD4, prLV),
  (0xBDD5, 0xBDEF, prLVT),
  (0xBDF0, 0xBDF0, prLV),
  (0xBDF1, 0xBE0B, prLVT),
  (0xBE0C, 0xBE0C, prLV),
  (0xBE0D, 0xBE27, prLVT),
  (0xBE28, 0xBE28, prLV),
  (0xBE29, 0xBE43, prLVT),
  (0xBE44, 0xBE44, prLV),
  (0xBE45, 0xBE5F, prLVT),
  (0xBE60, 0xBE60, prLV),
  (0xBE61, 0xBE7B, prLVT),
  (0xBE7C, 0xBE7C, prLV),
  (0xBE7D, 0xBE97, prLVT),
  (0xBE98, 0xBE98, prLV),
  (0xBE99, 0xBEB3, prLVT),
  (0xBEB4, 0xBEB4, prLV),
  (0xBEB5, 0xBECF, prLVT),
  (0xBED0, 0xBED0, prLV),
  (0xBED1, 0xBEEB, prLVT),
  (0xBEEC, 0xBEEC, prLV),
  (0xBEED, 0xBF07, prLVT),
  (0xBF08, 0xBF08, prLV),
  (0xBF09, 0xBF23, prLVT),
  (0xBF24, 0xBF24, prLV),
  (0xBF25, 0xBF3F, prLVT),
  (0xBF40, 0xBF40, prLV),
  (0xBF41, 0xBF5B, prLVT),
  (0xBF5C, 0xBF5C, prLV),
  (0xBF5D, 0xBF77, prLVT),
  (0xBF78, 0xBF78, prLV),
  (0xBF79, 0xBF93, prLVT),
  (0xBF94, 0xBF94, prLV),
  (0xBF95, 0xBFAF, prLVT),
  (0xBFB0, 0xBFB0, prLV),
  (0xBFB1, 0xBFCB, prLVT),
  (0xBFCC, 0xBFCC, prLV),
  (0xBFCD, 0xBFE7, prLVT),
  (0xBFE8, 0xBFE8, prLV),
  (0xBFE9, 0xC003, prLVT),
  (0xC004, 0xC004, prLV),
  (0xC005, 0xC01F, prLVT),
  (0xC020, 0xC020, prLV),
  (0xC021, 0xC03B, prLVT),
  (0xC03C, 0xC03C, prLV),
  (0xC03D, 0xC057, prLVT),
  (0xC058, 0xC058, prLV),
  (0xC059, 0xC073, prLVT),
  (0xC074, 0xC074, prLV),
  (0xC075, 0xC08F, prLVT),
  (0xC090, 0xC090, prLV),
  (0xC091, 0xC0AB, prLVT),
  (0xC0AC, 0xC0AC, prLV),
  (0xC0AD, 0xC0C7, prLVT),
  (0xC0C8, 0xC0C8, prLV),
  (0xC0C9, 0xC0E3, prLVT),
  (0xC0E4, 0xC0E4, prLV),
  (0xC0E5, 0xC0FF, prLVT),
  (0xC100, 0xC100, prLV),
  (0xC101, 0xC11B, prLVT),
  (0xC11C, 0xC11C, prLV),
  (0xC11D, 0xC137, prLVT)]

/-- rows 896..959 of `graphemeCodePoints` -/
def graphemeCodePoints_14 : List (Nat × Nat × Nat) := [
  (0xC138, 0xC138, prLV),
  (0xC139, 0xC153, prLVT),
  (0xC154, 0xC154, prLV),
  (0xC155, 0xC16F, prLVT),
  (0xC170, 0xC170, prLV),
  (0xC171, 0xC18B, prLVT),
  (0xC18C, 0xC18C, prLV),
  (0xC18D, 0xC1A7, prLVT),
  (0xC1A8, 0xC1A8, prLV),
  (0xC1A9, 0xC1C3, prLVT),
  (0xC1C4, 0xC1C4, prLV),
  (0xC1C5, 0xC1DF, prLVT),
  (0xC1E0, 0xC1E0, prLV),
  (0xC1E1, 0xC1FB, prLVT),
  (0xC1FC, 0xC1FC, prLV),
  (0xC1FD, 0xC217, prLVT),
  (0xC218, 0xC218, prLV),
  (0xC219, 0xC233, prLVT),
  (0xC234, 0xC234, prLV),
  (0xC235, 0xC24F, prLVT),
  (0xC250, 0xC250, prLV),
  (0xC251, 0xC26B, prLVT),
  (0xC26C, 0xC26C, prLV),
  (0xC26D, 0xC287, prLVT),
  (0xC288, 0xC288, prLV),
  (0xC289, 0xC2A3, prLVT),
  (0xC2A4, 0xC2A4, prLV),
  (0xC2A5, 0xC2BF, prLVT),
  (0xC2C0, 0xC2C0, prLV),
  (0xC2C1, 0xC2DB, prLVT),
  (0xC2DC, 0xC2DC, prLV),
  (0xC2DD, 0xC2F7, prLVT),
  (0xC2F8, 0xC2F8, prLV),
  (0xC2F9, 0xC313, prLVT),
  (0xC314, 0xC314, prLV),
  (0xC315, 0xC32F, prLVT),
  (0xC330, 0xC330, prLV),
  (0xC331, 0xC34B, prLVT),
  (0xC34C, 0xC34C, prLV),
  (0xC34D, 0xC367, prLVT),
  (0xC368, 0xC368, prLV),
  (0xC369, 0xC383, prLVT),
  (0xC384, 0xC384, prLV),
  (0xC385, 0xC39F, prLVT),
  (0xC3A0, 0xC3A0, prLV),
  (0xC3A1, 0xC3BB, prLVT),
  (0xC3BC, 0xC3BC, prLV),
  (0xC3BD, 0xC3D7, prLVT),
  (0xC3D8, 0xC3D8, prLV),
  (0xC3D9, 0xC3F3, prLVT),
  (0xC3F4, 0xC3F4, prLV),
  (0xC3F5, 0xC40F, prLVT),
  (0xC410, 0xC410, prLV),
  (0xC411, 0xC42B, prLVT),
  (0xC42C, 0xC42C, prLV),
  (0xC42D, 0xC447, prLVT),
  (0xC448, 0xC448, prLV),
  (0xC449, 0xC463, prLVT),
  (0xC464, 0xC464, prLV),
  (0xC465, 0xC47F, prLVT),
  (0xC480, 0xC480, prLV),
  (0xC481, 0xC49B, prLVT),
  (0xC49C, 0xC49C, prLV),
  (0xC49D, 0xC4B7, prLVT)]

/-- rows 960..1023 of `graphemeCodePoints` -/
def graphemeCodePoints_15 : List (Nat × Nat × Nat) := [
  (0xC4B8, 0xC4B8, prLV),
  (0xC4B9, 0xC4D3, prLVT),
  (0xC4D4, 0xC4D4, prLV),
  (0xC4D5, 0xC4EF, prLVT),
  (0xC4F0, 0xC4F0, prLV),
  (0xC4F1, 0xC50B, prLVT),
  (0xC50C, 0xC50C, prLV),
  (0xC50D, 0xC527, prLVT),
  (0xC528, 0xC528, prLV),
  (0xC529, 0xC543, prLVT),
  (0xC544, 0xC544, prLV),
  (0xC545, 0xC55F, prLVT),
  (0xC560, 0xC560, prLV),
  (0xC561, 0xC57B, prLVT),
  (0xC57C, 0xC57C, prLV),
  (0xC57D, 0xC597, prLVT),
  (0xC598, 0xC598, prLV),
  (0xC599, 0xC5B3, prLVT),
  (0xC5B4, 0xC5B4, prLV),
  (0xC5B5, 0xC5CF, prLVT),
  (0xC5D0, 0xC5D0, prLV),
  (0xC5D1, 0xC5EB, prLVT),
  (0xC5EC, 0xC5EC, prLV),
  (0xC5ED, 0xC607, prLVT),
  (0xC608, 0xC608, prLV),
  (0xC609, 0xC623, prLVT),
  (0xC624, 0xC624, prLV),
  (0xC625, 0xC63F, prLVT),
  (0xC640, 0xC640, prLV),
  (0xC641, 0xC65B, prLVT),
  (0xC65C, 0xC65C, prLV),
  (0xC65D, 0xC677, prLVT),
  (0xC678, 0xC678, prLV),
  (0xC679, 0xC693, prLVT),
  (0xC694, 0xC694, prLV),
  (0xC695, 0xC6AF, prLVT),
  (0xC6B0, 0xC6B0, prLV),
  (0xC6B1, 0xC6CB, prLVT),
  (0xC6CC, 0xC6CC, prLV),
  (0xC6CD, 0xC6E7, prLVT),
  (0xC6E8, 0xC6E8, prLV),
  (0xC6E9, 0xC703, prLVT),
  (0xC704, 0xC704, prLV),
  (0xC705, 0xC71F, prLVT),
  (0xC720, 0xC720, prLV),
  (0xC721, 0xC73B, prLVT),
  (0xC73C, 0xC73C, prLV),
  (0xC73D, 0xC757, prLVT),
  (0xC758, 0xC758, prLV),
  (0xC759, 0xC773, prLVT),
  (0xC774, 0xC774, prLV),
  (0xC775, 0xC78F, prLVT),
  (0xC790, 0xC790, prLV),
  (0xC791, 0xC7AB, prLVT),
  (0xC7AC, 0xC7AC, prLV),
  (0xC7AD, 0xC7C7, prLVT),
  (0xC7C8, 0xC7C8, prLV),
  (0xC7C9, 0xC7E3, prLVT),
  (0xC7E4, 0xC7E4, prLV),
  (0xC7E5, 0xC7FF, prLVT),
  (0xC800, 0xC800, prLV),
  (0xC801, 0xC81B, prLVT),
  (0xC81C, 0xC81C, prLV),
  (0xC81D, 0xC837, prLVT)]

/-- rows 1024..1087 of `graphemeCodePoints` -/
def graphemeCodePoints_16 : List (Nat × Nat × Nat) := [
  (0xC838, 0xC838, prLV),
  (0xC839, 0xC853, prLVT),
  (0xC854, 0xC854, prLV),
  (0xC855, 0xC86F, prLVT),
  (0xC870, 0xC870, prLV),
  (0xC871, 0xC88B, prLVT),
  (0xC88C, 0xC88C, prLV),
  (0xC88D, 0xC8A7, prLVT),
  (0xC8A8, 0xC8A8, prLV),
  (0xC8A9, 0xC8C3, prLVT),
  (0xC8C4, 0xC8C4, prLV),
  (0xC8C5, 0xC8DF, prLVT),
  (0xC8E0, 0xC8E0, prLV),
  (0xC8E1, 0xC8FB, prLVT),
  (0xC8FC, 0xC8FC, prLV),
  (0xC8FD, 0xC917, prLVT),
  (0xC918, 0xC918, prLV),
  (0xC919, 0xC933, prLVT),
  (0xC934, 0xC934, prLV),
  (0xC935, 0xC94F, prLVT),
  (0xC950, 0xC950, prLV),
  (0xC951, 0xC96B, prLVT),
  (0xC96C, 0xC96C, prLV),
  (0xC96D, 0xC987, prLVT),
  (0xC988, 0xC988, prLV),
  (0xC989, 0xC9A3, prLVT),
  (0xC9A4, 0xC9A4, prLV),
  (0xC9A5, 0xC9BF, prLVT),
  (0xC9C0, 0xC9C0, prLV),
  (0xC9C1, 0xC9DB, prLVT),
  (0xC9DC, 0xC9DC, prLV),
  (0xC9DD, 0xC9F7, prLVT),
  (0xC9F8, 0xC9F8, prLV),
  (0xC9F9, 0xCA13, prLVT),
  (0xCA14, 0xCA14, prLV),
  (0xCA15, 0xCA2F, prLVT),
  (0xCA30, 0xCA30, prLV),
  (0xCA31, 0xCA4B, prLVT),
  (0xCA4C, 0xCA4C, prLV),
  (0xCA4D, 0xCA67, prLVT),
  (0xCA68, 0xCA68, prLV),
  (0xCA69, 0xCA83, prLVT),
  (0xCA84, 0xCA84, prLV),
  (0xCA85, 0xCA9F, prLVT),
  (0xCAA0, 0xCAA0, prLV),
  (0xCAA1, 0xCABB, prLVT),
  (0xCABC, 0xCABC, prLV),
  (0xCABD, 0xCAD7, prLVT),
  (0xCAD8, 0xCAD8, prLV),
  (0xCAD9, 0xCAF3, prLVT),
  (0xCAF4, 0xCAF4, prLV),
  (0xCAF5, 0xCB0F, prLVT),
  (0xCB10, 0xCB10, prLV),
  (0xCB11, 0xCB2B, prLVT),
  (0xCB2C, 0xCB2C, prLV),
  (0xCB2D, 0xCB47, prLVT),
  (0xCB48, 0xCB48, prLV),
  (0xCB49, 0xCB63, prLVT),
  (0xCB64, 0xCB64, prLV),
  (0xCB65, 0xCB7F, prLVT),
  (0xCB80, 0xCB80, prLV),
  (0xCB81, 0xCB9B, prLVT),
  (0xCB9C, 0xCB9C, prLV),
  (0xCB9D, 0xCBB7, prLVT)]

/-- rows 1088..1151 of `graphemeCodePoints` -/
def graphemeCodePoints_17 : List (Nat × Nat × Nat) := [
  (0xCBB8, 0xCBB8, prLV),
  (0xCBB9, 0xCBD3, prLVT),
  (0xCBD4, 0xCBD4, prLV),
  (0xCBD5, 0xCBEF, prLVT),
  (0xCBF0, 0xCBF0, prLV),
  (0xCBF1, 0xCC0B, prLVT),
  (0xCC0C, 0xCC0C, prLV),
  (0xCC0D, 0xCC27, prLVT),
  (0xCC28, 0xCC28, prLV),
  (0xCC29, 0xCC43, prLVT),
  (0xCC44, 0xCC44, prLV),
  (0xCC45, 0xCC5F, prLVT),
  (0xCC60, 0xCC60, prLV),
  (0xCC61, 0xCC7B, prLVT),
  (0xCC7C, 0xCC7C, prLV),
  (0xCC7D, 0xCC97, prLVT),
  (0xCC98, 0xCC98, prLV),
  (0xCC99, 0xCCB3, prLVT),
  (0xCCB4, 0xCCB4, prLV),
  (0xCCB5, 0xCCCF, prLVT),
  (0xCCD0, 0xCCD0, prLV),
  (0xCCD1, 0xCCEB, prLVT),
  (0xCCEC, 0xCCEC, prLV),
  (0xCCED, 0xCD07, prLVT),
  (0xCD08, 0xCD08, prLV),
  (0xCD09, 0xCD23, prLVT),
  (0xCD24, 0xCD24, prLV),
  (0xCD25, 0xCD3F, prLVT),
  (0xCD40, 0xCD40, prLV),
  (0xCD41, 0xCD5B, prLVT),
  (0xCD5C, 0xCD5C, prLV),
  (0xCD5D, 0xCD77, prLVT),
  (0xCD78, 0xCD78, prLV),
  (0xCD79, 0xCD93, prLVT),
  (0xCD94, 0xCD94, prLV),
  (0xCD95, 0xCDAF, prLVT),
  (0xCDB0, 0xCDB0, prLV),
  (0xCDB1, 0xCDCB, prLVT),
  (0xCDCC, 0xCDCC, prLV),
  (0xCDCD, 0xCDE7, prLVT),
  (0xCDE8, 0xCDE8, prLV),
  (0xCDE9, 0xCE03, prLVT),
  (0xCE04, 0xCE04, prLV),
  (0xCE05, 0xCE1F, prLVT),
  (0xCE20, 0xCE20, prLV),
  (0xCE21, 0xCE3B, prLVT),
  (0xCE3C, 0xCE3C, prLV),
  (0xCE3D, 0xCE57, prLVT),
  (0xCE58, 0xCE58, prLV),
  (0xCE59, 0xCE73, prLVT),
  (0xCE74, 0xCE74, prLV),
  (0xCE75, 0xCE8F, prLVT),
  (0xCE90, 0xCE90, prLV),
  (0xCE91, 0xCEAB, prLVT),
  (0xCEAC, 0xCEAC, prLV),
  (0xCEAD, 0xCEC7, prLVT),
  (0xCEC8, 0xCEC8, prLV),
  (0xCEC9, 0xCEE3, prLVT),
  (0xCEE4, 0xCEE4, prLV),
  (0xCEE5, 0xCEFF, prLVT),
  (0xCF00, 0xCF00, prLV),
  (0xCF01, 0xCF1B, prLVT),
  (0xCF1C, 0xCF1C, prLV),
  (0xCF1D, 0xCF37, prLVT)]

/-- rows 1152..1215 of `graphemeCodePoints` -/
def graphemeCodePoints_18 : List (Nat × Nat × Nat) := [
  (0xCF38, 0xCF38, prLV),
  (0xCF39, 0xCF53, prLVT),
  (0xCF54, 0xCF54, prLV),
  (0xCF55, 0xCF6F, prLVT),
  (0xCF70, 0xCF70, prLV),
  (0xCF71, 0xCF8B, prLVT),
  (0xCF8C, 0xCF8C, prLV),
  (0xCF8D, 0xCFA7, prLVT),
  (0xCFA8, 0xCFA8, prLV),
  (0xCFA9, 0xCFC3, prLVT),
  (0xCFC4, 0xCFC4, prLV),
  (0xCFC5, 0xCFDF, prLVT),
  (0xCFE0, 0xCFE0, prLV),
  (0xCFE1, 0xCFFB, prLVT),
  (0xCFFC, 0xCFFC, prLV),
  (0xCFFD, 0xD017, prLVT),
  (0xD018, 0xD018, prLV),
  (0xD019, 0xD033, prLVT),
  (0xD034, 0xD034, prLV),
  (0xD035, 0xD04F, prLVT),
  (0xD050, 0xD050, prLV),
  (0xD051, 0xD06B, prLVT),
  (0xD06C, 0xD06C, prLV),
  (0xD06D, 0xD087, prLVT),
  (0xD088, 0xD088, prLV),
  (0xD089, 0xD0A3, prLVT),
  (0xD0A4, 0xD0A4, prLV),
  (0xD0A5, 0xD0BF, prLVT),
  (0xD0C0, 0xD0C0, prLV),
  (0xD0C1, 0xD0DB, prLVT),
  (0xD0DC, 0xD0DC, prLV),
  (0xD0DD, 0xD0F7, prLVT),
  (0xD0F8, 0xD0F8, prLV),
  (0xD0F9, 0xD113, prLVT),
  (0xD114, 0xD114, prLV),
  (0xD115, 0xD12F, prLVT),
  (0xD130, 0xD130, prLV),
  (0xD131, 0xD14B, prLVT),
  (0xD14C, 0xD14C, prLV),
  (0xD14D, 0xD167, prLVT),
  (0xD168, 0xD168, prLV),
  (0xD169, 0xD183, prLVT),
  (0xD184, 0xD184, prLV),
  (0xD185, 0xD19F, prLVT),
  (0xD1A0, 0xD1A0, prLV),
  (0xD1A1, 0xD1BB, prLVT),
  (0xD1BC, 0xD1BC, prLV),
  (0xD1BD, 0xD1D7, prLVT),
  (0xD1D8, 0xD1D8, prLV),
  (0xD1D9, 0xD1F3, prLVT),
  (0xD1F4, 0xD1F4, prLV),
  (0xD1F5, 0xD20F, prLVT),
  (0xD210, 0xD210, prLV),
  (0xD211, 0xD22B, prLVT),
  (0xD22C, 0xD22C, prLV),
  (0xD22D, 0xD247, prLVT),
  (0xD248, 0xD248, prLV),
  (0xD249, 0xD263, prLVT),
  (0xD264, 0xD264, prLV),
  (0xD265, 0xD27F, prLVT),
  (0xD280, 0xD280, prLV),
  (0xD281, 0xD29B, prLVT),
  (0xD29C, 0xD29C, prLV),
  (0xD29D, 0xD2B7, prLVT)]

/-- rows 1216..1279 of `graphemeCodePoints` -/
def graphemeCodePoints_19 : List (Nat × Nat × Nat) := [
  (0xD2B8, 0xD2B8, prLV),
  (0xD2B9, 0xD2D3, prLVT),
  (0xD2D4, 0xD2D4, prLV),
  (0xD2D5, 0xD2EF, prLVT),
  (0xD2F0, 0xD2F0, prLV),
  (0xD2F1, 0xD30B, prLVT),
  (0xD30C, 0xD30C, prLV),
  (0xD30D, 0xD327, prLVT),
  (0xD328, 0xD328, prLV),
  (0xD329, 0xD343, prLVT),
  (0xD344, 0xD344, prLV),
  (0xD345, 0xD35F, prLVT),
  (0xD360, 0xD360, prLV),
  (0xD361, 0xD37B, prLVT),
  (0xD37C, 0xD37C, prLV),
  (0xD37D, 0xD397, prLVT),
  (0xD398, 0xD398, prLV),
  (0xD399, 0xD3B3, prLVT),
  (0xD3B4, 0xD3B4, prLV),
  (0xD3B5, 0xD3CF, prLVT),
  (0xD3D0, 0xD3D0, prLV),
  (0xD3D1, 0xD3EB, prLVT),
  (0xD3EC, 0xD3EC, prLV),
  (0xD3ED, 0xD407, prLVT),
  (0xD408, 0xD408, prLV),
  (0xD409, 0xD423, prLVT),
  (0xD424, 0xD424, prLV),
  (0xD425, 0xD43F, prLVT),
  (0xD440, 0xD440, prLV),
  (0xD441, 0xD45B, prLVT),
  (0xD45C, 0xD45C, prLV),
  (0xD45D, 0xD477, prLVT),
  (0xD478, 0xD478, prLV),
  (0xD479, 0xD493, prLVT),
  (0xD494, 0xD494, prLV),
  (0xD495, 0xD4AF, prLVT),
  (0xD4B0, 0xD4B0, prLV),
  (0xD4B1, 0xD4CB, prLVT),
  (0xD4CC, 0xD4CC, prLV),
  (0xD4CD, 0xD4E7, prLVT),
  (0xD4E8, 0xD4E8, prLV),
  (0xD4E9, 0xD503, prLVT),
  (0xD504, 0xD504, prLV),
  (0xD505, 0xD51F, prLVT),
  (0xD520, 0xD520, prLV),
  (0xD521, 0xD53B, prLVT),
  (0xD53C, 0xD53C, prLV),
  (0xD53D, 0xD557, prLVT),
  (0xD558, 0xD558, prLV),
  (0xD559, 0xD573, prLVT),
  (0xD574, 0xD574, prLV),
  (0xD575, 0xD58F, prLVT),
  (0xD590, 0xD590, prLV),
  (0xD591, 0xD5AB, prLVT),
  (0xD5AC, 0xD5AC, prLV),
  (0xD5AD, 0xD5C7, prLVT),
  (0xD5C8, 0xD5C8, prLV),
  (0xD5C9, 0xD5E3, prLVT),
  (0xD5E4, 0xD5E4, prLV),
  (0xD5E5, 0xD5FF, prLVT),
  (0xD600, 0xD600, prLV),
  (0xD601, 0xD61B, prLVT),
  (0xD61C, 0xD61C, prLV),
  (0xD61D, 0xD637, prLVT)]

/-- rows 1280..1343 of `graphemeCodePoints` -/
def graphemeCodePoints_20 : List (Nat × Nat × Nat) := [
  (0xD638, 0xD638, prLV),
  (0xD639, 0xD653, prLVT),
  (0xD654, 0xD654, prLV),
  (0xD655, 0xD66F, prLVT),
  (0xD670, 0xD670, prLV),
  (0xD671, 0xD68B, prLVT),
  (0xD68C, 0xD68C, prLV),
  (0xD68D, 0xD6A7, prLVT),
  (0xD6A8, 0xD6A8, prLV),
  (0xD6A9, 0xD6C3, prLVT),
  (0xD6C4, 0xD6C4, prLV),
  (0xD6C5, 0xD6DF, prLVT),
  (0xD6E0, 0xD6E0, prLV),
  (0xD6E1, 0xD6FB, prLVT),
  (0xD6FC, 0xD6FC, prLV),
  (0xD6FD, 0xD717, prLVT),
  (0xD718, 0xD718, prLV),
  (0xD719, 0xD733, prLVT),
  (0xD734, 0xD734, prLV),
  (0xD735, 0xD74F, prLVT),
  (0xD750, 0xD750, prLV),
  (0xD751, 0xD76B, prLVT),
  (0xD76C, 0xD76C, prLV),
  (0xD76D, 0xD787, prLVT),
  (0xD788, 0xD788, prLV),
  (0xD789, 0xD7A3, prLVT),
  (0xD7B0, 0xD7C6, prV),
  (0xD7CB, 0xD7FB, prT),
  (0xFB1E, 0xFB1E, prExtend),
  (0xFE00, 0xFE0F, prExtend),
  (0xFE20, 0xFE2F, prExtend),
  (0xFEFF, 0xFEFF, prControl),
  (0xFF9E, 0xFF9F, prExtend),
  (0xFFF0, 0xFFF8, prControl),
  (0xFFF9, 0xFFFB, prControl),
  (0x101FD, 0x101FD, prExtend),
  (0x102E0, 0x102E0, prExtend),
  (0x10376, 0x1037A, prExtend),
  (0x10A01, 0x10A03, prExtend),
  (0x10A05, 0x10A06, prExtend),
  (0x10A0C, 0x10A0F, prExtend),
  (0x10A38, 0x10A3A, prExtend),
  (0x10A3F, 0x10A3F, prExtend),
  (0x10AE5, 0x10AE6, prExtend),
  (0x10D24, 0x10D27, prExtend),
  (0x10EAB, 0x10EAC, prExtend),
  (0x10F46, 0x10F50, prExtend),
  (0x10F82, 0x10F85, prExtend),
  (0x11000, 0x11000, prSpacingMark),
  (0x11001, 0x11001, prExtend),
  (0x11002, 0x11002, prSpacingMark),
  (0x11038, 0x11046, prExtend),
  (0x11070, 0x11070, prExtend),
  (0x11073, 0x11074, prExtend),
  (0x1107F, 0x11081, prExtend),
  (0x11082, 0x11082, prSpacingMark),
  (0x110B0, 0x110B2, prSpacingMark),
  (0x110B3, 0x110B6, prExtend),
  (0x110B7, 0x110B8, prSpacingMark),
  (0x110B9, 0x110BA, prExtend),
  (0x110BD, 0x110BD, prPrepend),
  (0x110C2, 0x110C2, prExtend),
  (0x110CD, 0x110CD, prPrepend),
  (0x11100, 0x11102, prExtend)]

/-- rows 1344..1407 of `graphemeCodePoints` -/
def graphemeCodePoints_21 : List (Nat × Nat × Nat) := [
  (0x11127, 0x1112B, prExtend),
  (0x1112C, 0x1112C, prSpacingMark),
  (0x1112D, 0x11134, prExtend),
  (0x11145, 0x11146, prSpacingMark),
  (0x11173, 0x11173, prExtend),
  (0x11180, 0x11181, prExtend),
  (0x11182, 0x11182, prSpacingMark),
  (0x111B3, 0x111B5, prSpacingMark),
  (0x111B6, 0x111BE, prExtend),
  (0x111BF, 0x111C0, prSpacingMark),
  (0x111C2, 0x111C3, prPrepend),
  (0x111C9, 0x111CC, prExtend),
  (0x111CE, 0x111CE, prSpacingMark),
  (0x111CF, 0x111CF, prExtend),
  (0x1122C, 0x1122E, prSpacingMark),
  (0x1122F, 0x11231, prExtend),
  (0x11232, 0x11233, prSpacingMark),
  (0x11234, 0x11234, prExtend),
  (0x11235, 0x11235, prSpacingMark),
  (0x11236, 0x11237, prExtend),
  (0x1123E, 0x1123E, prExtend),
  (0x112DF, 0x112DF, prExtend),
  (0x112E0, 0x112E2, prSpacingMark),
  (0x112E3, 0x112EA, prExtend),
  (0x11300, 0x11301, prExtend),
  (0x11302, 0x11303, prSpacingMark),
  (0x1133B, 0x1133C, prExtend),
  (0x1133E, 0x1133E, prExtend),
  (0x1133F, 0x1133F, prSpacingMark),
  (0x11340, 0x11340, prExtend),
  (0x11341, 0x11344, prSpacingMark),
  (0x11347, 0x11348, prSpacingMark),
  (0x1134B, 0x1134D, prSpacingMark),
  (0x11357, 0x11357, prExtend),
  (0x11362, 0x11363, prSpacingMark),
  (0x11366, 0x1136C, prExtend),
  (0x11370, 0x11374, prExtend),
  (0x11435, 0x11437, prSpacingMark),
  (0x11438, 0x1143F, prExtend),
  (0x11440, 0x11441, prSpacingMark),
  (0x11442, 0x11444, prExtend),
  (0x11445, 0x11445, prSpacingMark),
  (0x11446, 0x11446, prExtend),
  (0x1145E, 0x1145E, prExtend),
  (0x114B0, 0x114B0, prExtend),
  (0x114B1, 0x114B2, prSpacingMark),
  (0x114B3, 0x114B8, prExtend),
  (0x114B9, 0x114B9, prSpacingMark),
  (0x114BA, 0x114BA, prExtend),
  (0x114BB, 0x114BC, prSpacingMark),
  (0x114BD, 0x114BD, prExtend),
  (0x114BE, 0x114BE, prSpacingMark),
  (0x114BF, 0x114C0, prExtend),
  (0x114C1, 0x114C1, prSpacingMark),
  (0x114C2, 0x114C3, prExtend),
  (0x115AF, 0x115AF, prExtend),
  (0x115B0, 0x115B1, prSpacingMark),
  (0x115B2, 0x115B5, prExtend),
  (0x115B8, 0x115BB, prSpacingMark),
  (0x115BC, 0x115BD, prExtend),
  (0x115BE, 0x115BE, prSpacingMark),
  (0x115BF, 0x115C0, prExtend),
  (0x115DC, 0x115DD, prExtend),
  (0x11630, 0x11632, prSpacingMark)]

/-- rows 1408..1471 of `graphemeCodePoints` -/
def graphemeCodePoints_22 : List (Nat × Nat × Nat) := [
  (0x11633, 0x1163A, prExtend),
  (0x1163B, 0x1163C, prSpacingMark),
  (0x1163D, 0x1163D, prExtend),
  (0x1163E, 0x1163E, prSpacingMark),
  (0x1163F, 0x11640, prExtend),
  (0x116AB, 0x116AB, prExtend),
  (0x116AC, 0x116AC, prSpacingMark),
  (0x116AD, 0x116AD, prExtend),
  (0x116AE, 0x116AF, prSpacingMark),
  (0x116B0, 0x116B5, prExtend),
  (0x116B6, 0x116B6, prSpacingMark),
  (0x116B7, 0x116B7, prExtend),
  (0x1171D, 0x1171F, prExtend),
  (0x11722, 0x11725, prExtend),
  (0x11726, 0x11726, prSpacingMark),
  (0x11727, 0x1172B, prExtend),
  (0x1182C, 0x1182E, prSpacingMark),
  (0x1182F, 0x11837, prExtend),
  (0x11838, 0x11838, prSpacingMark),
  (0x11839, 0x1183A, prExtend),
  (0x11930, 0x11930, prExtend),
  (0x11931, 0x11935, prSpacingMark),
  (0x11937, 0x11938, prSpacingMark),
  (0x1193B, 0x1193C, prExtend),
  (0x1193D, 0x1193D, prSpacingMark),
  (0x1193E, 0x1193E, prExtend),
  (0x1193F, 0x1193F, prPrepend),
  (0x11940, 0x11940, prSpacingMark),
  (0x11941, 0x11941, prPrepend),
  (0x11942, 0x11942, prSpacingMark),
  (0x11943, 0x11943, prExtend),
  (0x119D1, 0x119D3, prSpacingMark),
  (0x119D4, 0x119D7, prExtend),
  (0x119DA, 0x119DB, prExtend),
  (0x119DC, 0x119DF, prSpacingMark),
  (0x119E0, 0x119E0, prExtend),
  (0x119E4, 0x119E4, prSpacingMark),
  (0x11A01, 0x11A0A, prExtend),
  (0x11A33, 0x11A38, prExtend),
  (0x11A39, 0x11A39, prSpacingMark),
  (0x11A3A, 0x11A3A, prPrepend),
  (0x11A3B, 0x11A3E, prExtend),
  (0x11A47, 0x11A47, prExtend),
  (0x11A51, 0x11A56, prExtend),
  (0x11A57, 0x11A58, prSpacingMark),
  (0x11A59, 0x11A5B, prExtend),
  (0x11A84, 0x11A89, prPrepend),
  (0x11A8A, 0x11A96, prExtend),
  (0x11A97, 0x11A97, prSpacingMark),
  (0x11A98, 0x11A99, prExtend),
  (0x11C2F, 0x11C2F, prSpacingMark),
  (0x11C30, 0x11C36, prExtend),
  (0x11C38, 0x11C3D, prExtend),
  (0x11C3E, 0x11C3E, prSpacingMark),
  (0x11C3F, 0x11C3F, prExtend),
  (0x11C92, 0x11CA7, prExtend),
  (0x11CA9, 0x11CA9, prSpacingMark),
  (0x11CAA, 0x11CB0, prExtend),
  (0x11CB1, 0x11CB1, prSpacingMark),
  (0x11CB2, 0x11CB3, prExtend),
  (0x11CB4, 0x11CB4, prSpacingMark),
  (0x11CB5, 0x11CB6, prExtend),
  (0x11D31, 0x11D36, prExtend),
  (0x11D3A, 0x11D3A, prExtend)]

/-- rows 1472..1535 of `graphemeCodePoints` -/
def graphemeCodePoints_23 : List (Nat × Nat × Nat) := [
  (0x11D3C, 0x11D3D, prExtend),
  (0x11D3F, 0x11D45, prExtend),
  (0x11D46, 0x11D46, prPrepend),
  (0x11D47, 0x11D47, prExtend),
  (0x11D8A, 0x11D8E, prSpacingMark),
  (0x11D90, 0x11D91, prExtend),
  (0x11D93, 0x11D94, prSpacingMark),
  (0x11D95, 0x11D95, prExtend),
  (0x11D96, 0x11D96, prSpacingMark),
  (0x11D97, 0x11D97, prExtend),
  (0x11EF3, 0x11EF4, prExtend),
  (0x11EF5, 0x11EF6, prSpacingMark),
  (0x13430, 0x13438, prControl),
  (0x16AF0, 0x16AF4, prExtend),
  (0x16B30, 0x16B36, prExtend),
  (0x16F4F, 0x16F4F, prExtend),
  (0x16F51, 0x16F87, prSpacingMark),
  (0x16F8F, 0x16F92, prExtend),
  (0x16FE4, 0x16FE4, prExtend),
  (0x16FF0, 0x16FF1, prSpacingMark),
  (0x1BC9D, 0x1BC9E, prExtend),
  (0x1BCA0, 0x1BCA3, prControl),
  (0x1CF00, 0x1CF2D, prExtend),
  (0x1CF30, 0x1CF46, prExtend),
  (0x1D165, 0x1D165, prExtend),
  (0x1D166, 0x1D166, prSpacingMark),
  (0x1D167, 0x1D169, prExtend),
  (0x1D16D, 0x1D16D, prSpacingMark),
  (0x1D16E, 0x1D172, prExtend),
  (0x1D173, 0x1D17A, prControl),
  (0x1D17B, 0x1D182, prExtend),
  (0x1D185, 0x1D18B, prExtend),
  (0x1D1AA, 0x1D1AD, prExtend),
  (0x1D242, 0x1D244, prExtend),
  (0x1DA00, 0x1DA36, prExtend),
  (0x1DA3B, 0x1DA6C, prExtend),
  (0x1DA75, 0x1DA75, prExtend),
  (0x1DA84, 0x1DA84, prExtend),
  (0x1DA9B, 0x1DA9F, prExtend),
  (0x1DAA1, 0x1DAAF, prExtend),
  (0x1E000, 0x1E006, prExtend),
  (0x1E008, 0x1E018, prExtend),
  (0x1E01B, 0x1E021, prExtend),
  (0x1E023, 0x1E024, prExtend),
  (0x1E026, 0x1E02A, prExtend),
  (0x1E130, 0x1E136, prExtend),
  (0x1E2AE, 0x1E2AE, prExtend),
  (0x1E2EC, 0x1E2EF, prExtend),
  (0x1E8D0, 0x1E8D6, prExtend),
  (0x1E944, 0x1E94A, prExtend),
  (0x1F000, 0x1F003, prExtendedPictographic),
  (0x1F004, 0x1F004, prExtendedPictographic),
  (0x1F005, 0x1F0CE, prExtendedPictographic),
  (0x1F0CF, 0x1F0CF, prExtendedPictographic),
  (0x1F0D0, 0x1F0FF, prExtendedPictographic),
  (0x1F10D, 0x1F10F, prExtendedPictographic),
  (0x1F12F, 0x1F12F, prExtendedPictographic),
  (0x1F16C, 0x1F16F, prExtendedPictographic),
  (0x1F170, 0x1F171, prExtendedPictographic),
  (0x1F17E, 0x1F17F, prExtendedPictographic),
  (0x1F18E, 0x1F18E, prExtendedPictographic),
  (0x1F191, 0x1F19A, prExtendedPictographic),
  (0x1F1AD, 0x1F1E5, prExtendedPictographic),
  (0x1F1E6, 0x1F1FF, prRegionalIndicator)]

/-- rows 1536..1599 of `graphemeCodePoints` -/
def graphemeCodePoints_24 : List (Nat × Nat × Nat) := [
  (0x1F201, 0x1F202, prExtendedPictographic),
  (0x1F203, 0x1F20F, prExtendedPictographic),
  (0x1F21A, 0x1F21A, prExtendedPictographic),
  (0x1F22F, 0x1F22F, prExtendedPictographic),
  (0x1F232, 0x1F23A, prExtendedPictographic),
  (0x1F23C, 0x1F23F, prExtendedPictographic),
  (0x1F249, 0x1F24F, prExtendedPictographic),
  (0x1F250, 0x1F251, prExtendedPictographic),
  (0x1F252, 0x1F2FF, prExtendedPictographic),
  (0x1F300, 0x1F30C, prExtendedPictographic),
  (0x1F30D, 0x1F30E, prExtendedPictographic),
  (0x1F30F, 0x1F30F, prExtendedPictographic),
  (0x1F310, 0x1F310, prExtendedPictographic),
  (0x1F311, 0x1F311, prExtendedPictographic),
  (0x1F312, 0x1F312, prExtendedPictographic),
  (0x1F313, 0x1F315, prExtendedPictographic),
  (0x1F316, 0x1F318, prExtendedPictographic),
  (0x1F319, 0x1F319, prExtendedPictographic),
  (0x1F31A, 0x1F31A, prExtendedPictographic),
  (0x1F31B, 0x1F31B, prExtendedPictographic),
  (0x1F31C, 0x1F31C, prExtendedPictographic),
  (0x1F31D, 0x1F31E, prExtendedPictographic),
  (0x1F31F, 0x1F320, prExtendedPictographic),
  (0x1F321, 0x1F321, prExtendedPictographic),
  (0x1F322, 0x1F323, prExtendedPictographic),
  (0x1F324, 0x1F32C, prExtendedPictographic),
  (0x1F32D, 0x1F32F, prExtendedPictographic),
  (0x1F330, 0x1F331, prExtendedPictographic),
  (0x1F332, 0x1F333, prExtendedPictographic),
  (0x1F334, 0x1F335, prExtendedPictographic),
  (0x1F336, 0x1F336, prExtendedPictographic),
  (0x1F337, 0x1F34A, prExtendedPictographic),
  (0x1F34B, 0x1F34B, prExtendedPictographic),
  (0x1F34C, 0x1F34F, prExtendedPictographic),
  (0x1F350, 0x1F350, prExtendedPictographic),
  (0x1F351, 0x1F37B, prExtendedPictographic),
  (0x1F37C, 0x1F37C, prExtendedPictographic),
  (0x1F37D, 0x1F37D, prExtendedPictographic),
  (0x1F37E, 0x1F37F, prExtendedPictographic),
  (0x1F380, 0x1F393, prExtendedPictographic),
  (0x1F394, 0x1F395, prExtendedPictographic),
  (0x1F396, 0x1F397, prExtendedPictographic),
  (0x1F398, 0x1F398, prExtendedPictographic),
  (0x1F399, 0x1F39B, prExtendedPictographic),
  (0x1F39C, 0x1F39D, prExtendedPictographic),
  (0x1F39E, 0x1F39F, prExtendedPictographic),
  (0x1F3A0, 0x1F3C4, prExtendedPictographic),
  (0x1F3C5, 0x1F3C5, prExtendedPictographic),
  (0x1F3C6, 0x1F3C6, prExtendedPictographic),
  (0x1F3C7, 0x1F3C7, prExtendedPictographic),
  (0x1F3C8, 0x1F3C8, prExtendedPictographic),
  (0x1F3C9, 0x1F3C9, prExtendedPictographic),
  (0x1F3CA, 0x1F3CA, prExtendedPictographic),
  (0x1F3CB, 0x1F3CE, prExtendedPictographic),
  (0x1F3CF, 0x1F3D3, prExtendedPictographic),
  (0x1F3D4, 0x1F3DF, prExtendedPictographic),
  (0x1F3E0, 0x1F3E3, prExtendedPictographic),
  (0x1F3E4, 0x1F3E4, prExtendedPictographic),
  (0x1F3E5, 0x1F3F0, prExtendedPictographic),
  (0x1F3F1, 0x1F3F2, prExtendedPictographic),
  (0x1F3F3, 0x1F3F3, prExtendedPictographic),
  (0x1F3F4, 0x1F3F4, prExtendedPictographic),
  (0x1F3F5, 0x1F3F5, prExtendedPictographic),
  (0x1F3F6, 0x1F3F6, prExtendedPictographic)]

/-- rows 1600..1663 of `graphemeCodePoints` -/
def graphemeCodePoints_25 : List (Nat × Nat × Nat) := [
  (0x1F3F7, 0x1F3F7, prExtendedPictographic),
  (0x1F3F8, 0x1F3FA, prExtendedPictographic),
  (0x1F3FB, 0x1F3FF, prExtend),
  (0x1F400, 0x1F407, prExtendedPictographic),
  (0x1F408, 0x1F408, prExtendedPictographic),
  (0x1F409, 0x1F40B, prExtendedPictographic),
  (0x1F40C, 0x1F40E, prExtendedPictographic),
  (0x1F40F, 0x1F410, prExtendedPictographic),
  (0x1F411, 0x1F412, prExtendedPictographic),
  (0x1F413, 0x1F413, prExtendedPictographic),
  (0x1F414, 0x1F414, prExtendedPictographic),
  (0x1F415, 0x1F415, prExtendedPictographic),
  (0x1F416, 0x1F416, prExtendedPictographic),
  (0x1F417, 0x1F429, prExtendedPictographic),
  (0x1F42A, 0x1F42A, prExtendedPictographic),
  (0x1F42B, 0x1F43E, prExtendedPictographic),
  (0x1F43F, 0x1F43F, prExtendedPictographic),
  (0x1F440, 0x1F440, prExtendedPictographic),
  (0x1F441, 0x1F441, prExtendedPictographic),
  (0x1F442, 0x1F464, prExtendedPictographic),
  (0x1F465, 0x1F465, prExtendedPictographic),
  (0x1F466, 0x1F46B, prExtendedPictographic),
  (0x1F46C, 0x1F46D, prExtendedPictographic),
  (0x1F46E, 0x1F4AC, prExtendedPictographic),
  (0x1F4AD, 0x1F4AD, prExtendedPictographic),
  (0x1F4AE, 0x1F4B5, prExtendedPictographic),
  (0x1F4B6, 0x1F4B7, prExtendedPictographic),
  (0x1F4B8, 0x1F4EB, prExtendedPictographic),
  (0x1F4EC, 0x1F4ED, prExtendedPictographic),
  (0x1F4EE, 0x1F4EE, prExtendedPictographic),
  (0x1F4EF, 0x1F4EF, prExtendedPictographic),
  (0x1F4F0, 0x1F4F4, prExtendedPictographic),
  (0x1F4F5, 0x1F4F5, prExtendedPictographic),
  (0x1F4F6, 0x1F4F7, prExtendedPictographic),
  (0x1F4F8, 0x1F4F8, prExtendedPictographic),
  (0x1F4F9, 0x1F4FC, prExtendedPictographic),
  (0x1F4FD, 0x1F4FD, prExtendedPictographic),
  (0x1F4FE, 0x1F4FE, prExtendedPictographic),
  (0x1F4FF, 0x1F502, prExtendedPictographic),
  (0x1F503, 0x1F503, prExtendedPictographic),
  (0x1F504, 0x1F507, prExtendedPictographic),
  (0x1F508, 0x1F508, prExtendedPictographic),
  (0x1F509, 0x1F509, prExtendedPictographic),
  (0x1F50A, 0x1F514, prExtendedPictographic),
  (0x1F515, 0x1F515, prExtendedPictographic),
  (0x1F516, 0x1F52B, prExtendedPictographic),
  (0x1F52C, 0x1F52D, prExtendedPictographic),
  (0x1F52E, 0x1F53D, prExtendedPictographic),
  (0x1F546, 0x1F548, prExtendedPictographic),
  (0x1F549, 0x1F54A, prExtendedPictographic),
  (0x1F54B, 0x1F54E, prExtendedPictographic),
  (0x1F54F, 0x1F54F, prExtendedPictographic),
  (0x1F550, 0x1F55B, prExtendedPictographic),
  (0x1F55C, 0x1F567, prExtendedPictographic),
  (0x1F568, 0x1F56E, prExtendedPictographic),
  (0x1F56F, 0x1F570, prExtendedPictographic),
  (0x1F571, 0x1F572, prExtendedPictographic),
  (0x1F573, 0x1F579, prExtendedPictographic),
  (0x1F57A, 0x1F57A, prExtendedPictographic),
  (0x1F57B, 0x1F586, prExtendedPictographic),
  (0x1F587, 0x1F587, prExtendedPictographic),
  (0x1F588, 0x1F589, prExtendedPictographic),
  (0x1F58A, 0x1F58D, prExtendedPictographic),
  (0x1F58E, 0x1F58F, prExtendedPictographic)]

/-- rows 1664..1727 of `graphemeCodePoints` -/
def graphemeCodePoints_26 : List (Nat × Nat × Nat) := [
  (0x1F590, 0x1F590, prExtendedPictographic),
  (0x1F591, 0x1F594, prExtendedPictographic),
  (0x1F595, 0x1F596, prExtendedPictographic),
  (0x1F597, 0x1F5A3, prExtendedPictographic),
  (0x1F5A4, 0x1F5A4, prExtendedPictographic),
  (0x1F5A5, 0x1F5A5, prExtendedPictographic),
  (0x1F5A6, 0x1F5A7, prExtendedPictographic),
  (0x1F5A8, 0x1F5A8, prExtendedPictographic),
  (0x1F5A9, 0x1F5B0, prExtendedPictographic),
  (0x1F5B1, 0x1F5B2, prExtendedPictographic),
  (0x1F5B3, 0x1F5BB, prExtendedPictographic),
  (0x1F5BC, 0x1F5BC, prExtendedPictographic),
  (0x1F5BD, 0x1F5C1, prExtendedPictographic),
  (0x1F5C2, 0x1F5C4, prExtendedPictographic),
  (0x1F5C5, 0x1F5D0, prExtendedPictographic),
  (0x1F5D1, 0x1F5D3, prExtendedPictographic),
  (0x1F5D4, 0x1F5DB, prExtendedPictographic),
  (0x1F5DC, 0x1F5DE, prExtendedPictographic),
  (0x1F5DF, 0x1F5E0, prExtendedPictographic),
  (0x1F5E1, 0x1F5E1, prExtendedPictographic),
  (0x1F5E2, 0x1F5E2, prExtendedPictographic),
  (0x1F5E3, 0x1F5E3, prExtendedPictographic),
  (0x1F5E4, 0x1F5E7, prExtendedPictographic),
  (0x1F5E8, 0x1F5E8, prExtendedPictographic),
  (0x1F5E9, 0x1F5EE, prExtendedPictographic),
  (0x1F5EF, 0x1F5EF, prExtendedPictographic),
  (0x1F5F0, 0x1F5F2, prExtendedPictographic),
  (0x1F5F3, 0x1F5F3, prExtendedPictographic),
  (0x1F5F4, 0x1F5F9, prExtendedPictographic),
  (0x1F5FA, 0x1F5FA, prExtendedPictographic),
  (0x1F5FB, 0x1F5FF, prExtendedPictographic),
  (0x1F600, 0x1F600, prExtendedPictographic),
  (0x1F601, 0x1F606, prExtendedPictographic),
  (0x1F607, 0x1F608, prExtendedPictographic),
  (0x1F609, 0x1F60D, prExtendedPictographic),
  (0x1F60E, 0x1F60E, prExtendedPictographic),
  (0x1F60F, 0x1F60F, prExtendedPictographic),
  (0x1F610, 0x1F610, prExtendedPictographic),
  (0x1F611, 0x1F611, prExtendedPictographic),
  (0x1F612, 0x1F614, prExtendedPictographic),
  (0x1F615, 0x1F615, prExtendedPictographic),
  (0x1F616, 0x1F616, prExtendedPictographic),
  (0x1F617, 0x1F617, prExtendedPictographic),
  (0x1F618, 0x1F618, prExtendedPictographic),
  (0x1F619, 0x1F619, prExtendedPictographic),
  (0x1F61A, 0x1F61A, prExtendedPictographic),
  (0x1F61B, 0x1F61B, prExtendedPictographic),
  (0x1F61C, 0x1F61E, prExtendedPictographic),
  (0x1F61F, 0x1F61F, prExtendedPictographic),
  (0x1F620, 0x1F625, prExtendedPictographic),
  (0x1F626, 0x1F627, prExtendedPictographic),
  (0x1F628, 0x1F62B, prExtendedPictographic),
  (0x1F62C, 0x1F62C, prExtendedPictographic),
  (0x1F62D, 0x1F62D, prExtendedPictographic),
  (0x1F62E, 0x1F62F, prExtendedPictographic),
  (0x1F630, 0x1F633, prExtendedPictographic),
  (0x1F634, 0x1F634, prExtendedPictographic),
  (0x1F635, 0x1F635, prExtendedPictographic),
  (0x1F636, 0x1F636, prExtendedPictographic),
  (0x1F637, 0x1F640, prExtendedPictographic),
  (0x1F641, 0x1F644, prExtendedPictographic),
  (0x1F645, 0x1F64F, prExtendedPictographic),
  (0x1F680, 0x1F680, prExtendedPictographic),
  (0x1F681, 0x1F682, prExtendedPictographic)]

/-- rows 1728..1791 of `graphemeCodePoints` -/
def graphemeCodePoints_27 : List (Nat × Nat × Nat) := [
  (0x1F683, 0x1F685, prExtendedPictographic),
  (0x1F686, 0x1F686, prExtendedPictographic),
  (0x1F687, 0x1F687, prExtendedPictographic),
  (0x1F688, 0x1F688, prExtendedPictographic),
  (0x1F689, 0x1F689, prExtendedPictographic),
  (0x1F68A, 0x1F68B, prExtendedPictographic),
  (0x1F68C, 0x1F68C, prExtendedPictographic),
  (0x1F68D, 0x1F68D, prExtendedPictographic),
  (0x1F68E, 0x1F68E, prExtendedPictographic),
  (0x1F68F, 0x1F68F, prExtendedPictographic),
  (0x1F690, 0x1F690, prExtendedPictographic),
  (0x1F691, 0x1F693, prExtendedPictographic),
  (0x1F694, 0x1F694, prExtendedPictographic),
  (0x1F695, 0x1F695, prExtendedPictographic),
  (0x1F696, 0x1F696, prExtendedPictographic),
  (0x1F697, 0x1F697, prExtendedPictographic),
  (0x1F698, 0x1F698, prExtendedPictographic),
  (0x1F699, 0x1F69A, prExtendedPictographic),
  (0x1F69B, 0x1F6A1, prExtendedPictographic),
  (0x1F6A2, 0x1F6A2, prExtendedPictographic),
  (0x1F6A3, 0x1F6A3, prExtendedPictographic),
  (0x1F6A4, 0x1F6A5, prExtendedPictographic),
  (0x1F6A6, 0x1F6A6, prExtendedPictographic),
  (0x1F6A7, 0x1F6AD, prExtendedPictographic),
  (0x1F6AE, 0x1F6B1, prExtendedPictographic),
  (0x1F6B2, 0x1F6B2, prExtendedPictographic),
  (0x1F6B3, 0x1F6B5, prExtendedPictographic),
  (0x1F6B6, 0x1F6B6, prExtendedPictographic),
  (0x1F6B7, 0x1F6B8, prExtendedPictographic),
  (0x1F6B9, 0x1F6BE, prExtendedPictographic),
  (0x1F6BF, 0x1F6BF, prExtendedPictographic),
  (0x1F6C0, 0x1F6C0, prExtendedPictographic),
  (0x1F6C1, 0x1F6C5, prExtendedPictographic),
  (0x1F6C6, 0x1F6CA, prExtendedPictographic),
  (0x1F6CB, 0x1F6CB, prExtendedPictographic),
  (0x1F6CC, 0x1F6CC, prExtendedPictographic),
  (0x1F6CD, 0x1F6CF, prExtendedPictographic),
  (0x1F6D0, 0x1F6D0, prExtendedPictographic),
  (0x1F6D1, 0x1F6D2, prExtendedPictographic),
  (0x1F6D3, 0x1F6D4, prExtendedPictographic),
  (0x1F6D5, 0x1F6D5, prExtendedPictographic),
  (0x1F6D6, 0x1F6D7, prExtendedPictographic),
  (0x1F6D8, 0x1F6DC, prExtendedPictographic),
  (0x1F6DD, 0x1F6DF, prExtendedPictographic),
  (0x1F6E0, 0x1F6E5, prExtendedPictographic),
  (0x1F6E6, 0x1F6E8, prExtendedPictographic),
  (0x1F6E9, 0x1F6E9, prExtendedPictographic),
  (0x1F6EA, 0x1F6EA, prExtendedPictographic),
  (0x1F6EB, 0x1F6EC, prExtendedPictographic),
  (0x1F6ED, 0x1F6EF, prExtendedPictographic),
  (0x1F6F0, 0x1F6F0, prExtendedPictographic),
  (0x1F6F1, 0x1F6F2, prExtendedPictographic),
  (0x1F6F3, 0x1F6F3, prExtendedPictographic),
  (0x1F6F4, 0x1F6F6, prExtendedPictographic),
  (0x1F6F7, 0x1F6F8, prExtendedPictographic),
  (0x1F6F9, 0x1F6F9, prExtendedPictographic),
  (0x1F6FA, 0x1F6FA, prExtendedPictographic),
  (0x1F6FB, 0x1F6FC, prExtendedPictographic),
  (0x1F6FD, 0x1F6FF, prExtendedPictographic),
  (0x1F774, 0x1F77F, prExtendedPictographic),
  (0x1F7D5, 0x1F7DF, prExtendedPictographic),
  (0x1F7E0, 0x1F7EB, prExtendedPictographic),
  (0x1F7EC, 0x1F7EF, prExtendedPictographic),
  (0x1F7F0, 0x1F7F0, prExtendedPictographic)]

/-- rows 1792..1855 of `graphemeCodePoints` -/
def graphemeCodePoints_28 : List (Nat × Nat × Nat) := [
  (0x1F7F1, 0x1F7FF, prExtendedPictographic),
  (0x1F80C, 0x1F80F, prExtendedPictographic),
  (0x1F848, 0x1F84F, prExtendedPictographic),
  (0x1F85A, 0x1F85F, prExtendedPictographic),
  (0x1F888, 0x1F88F, prExtendedPictographic),
  (0x1F8AE, 0x1F8FF, prExtendedPictographic),
  (0x1F90C, 0x1F90C, prExtendedPictographic),
  (0x1F90D, 0x1F90F, prExtendedPictographic),
  (0x1F910, 0x1F918, prExtendedPictographic),
  (0x1F919, 0x1F91E, prExtendedPictographic),
  (0x1F91F, 0x1F91F, prExtendedPictographic),
  (0x1F920, 0x1F927, prExtendedPictographic),
  (0x1F928, 0x1F92F, prExtendedPictographic),
  (0x1F930, 0x1F930, prExtendedPictographic),
  (0x1F931, 0x1F932, prExtendedPictographic),
  (0x1F933, 0x1F93A, prExtendedPictographic),
  (0x1F93C, 0x1F93E, prExtendedPictographic),
  (0x1F93F, 0x1F93F, prExtendedPictographic),
  (0x1F940, 0x1F945, prExtendedPictographic),
  (0x1F947, 0x1F94B, prExtendedPictographic),
  (0x1F94C, 0x1F94C, prExtendedPictographic),
  (0x1F94D, 0x1F94F, prExtendedPictographic),
  (0x1F950, 0x1F95E, prExtendedPictographic),
  (0x1F95F, 0x1F96B, prExtendedPictographic),
  (0x1F96C, 0x1F970, prExtendedPictographic),
  (0x1F971, 0x1F971, prExtendedPictographic),
  (0x1F972, 0x1F972, prExtendedPictographic),
  (0x1F973, 0x1F976, prExtendedPictographic),
  (0x1F977, 0x1F978, prExtendedPictographic),
  (0x1F979, 0x1F979, prExtendedPictographic),
  (0x1F97A, 0x1F97A, prExtendedPictographic),
  (0x1F97B, 0x1F97B, prExtendedPictographic),
  (0x1F97C, 0x1F97F, prExtendedPictographic),
  (0x1F980, 0x1F984, prExtendedPictographic),
  (0x1F985, 0x1F991, prExtendedPictographic),
  (0x1F992, 0x1F997, prExtendedPictographic),
  (0x1F998, 0x1F9A2, prExtendedPictographic),
  (0x1F9A3, 0x1F9A4, prExtendedPictographic),
  (0x1F9A5, 0x1F9AA, prExtendedPictographic),
  (0x1F9AB, 0x1F9AD, prExtendedPictographic),
  (0x1F9AE, 0x1F9AF, prExtendedPictographic),
  (0x1F9B0, 0x1F9B9, prExtendedPictographic),
  (0x1F9BA, 0x1F9BF, prExtendedPictographic),
  (0x1F9C0, 0x1F9C0, prExtendedPictographic),
  (0x1F9C1, 0x1F9C2, prExtendedPictographic),
  (0x1F9C3, 0x1F9CA, prExtendedPictographic),
  (0x1F9CB, 0x1F9CB, prExtendedPictographic),
  (0x1F9CC, 0x1F9CC, prExtendedPictographic),
  (0x1F9CD, 0x1F9CF, prExtendedPictographic),
  (0x1F9D0, 0x1F9E6, prExtendedPictographic),
  (0x1F9E7, 0x1F9FF, prExtendedPictographic),
  (0x1FA00, 0x1FA6F, prExtendedPictographic),
  (0x1FA70, 0x1FA73, prExtendedPictographic),
  (0x1FA74, 0x1FA74, prExtendedPictographic),
  (0x1FA75, 0x1FA77, prExtendedPictographic),
  (0x1FA78, 0x1FA7A, prExtendedPictographic),
  (0x1FA7B, 0x1FA7C, prExtendedPictographic),
  (0x1FA7D, 0x1FA7F, prExtendedPictographic),
  (0x1FA80, 0x1FA82, prExtendedPictographic),
  (0x1FA83, 0x1FA86, prExtendedPictographic),
  (0x1FA87, 0x1FA8F, prExtendedPictographic),
  (0x1FA90, 0x1FA95, prExtendedPictographic),
  (0x1FA96, 0x1FAA8, prExtendedPictographic),
  (0x1FAA9, 0x1FAAC, prExtendedPictographic)]

/-- rows 1856..1877 of `graphemeCodePoints` -/
def graphemeCodePoints_29 : List (Nat × Nat × Nat) := [
  (0x1FAAD, 0x1FAAF, prExtendedPictographic),
  (0x1FAB0, 0x1FAB6, prExtendedPictographic),
  (0x1FAB7, 0x1FABA, prExtendedPictographic),
  (0x1FABB, 0x1FABF, prExtendedPictographic),
  (0x1FAC0, 0x1FAC2, prExtendedPictographic),
  (0x1FAC3, 0x1FAC5, prExtendedPictographic),
  (0x1FAC6, 0x1FACF, prExtendedPictographic),
  (0x1FAD0, 0x1FAD6, prExtendedPictographic),
  (0x1FAD7, 0x1FAD9, prExtendedPictographic),
  (0x1FADA, 0x1FADF, prExtendedPictographic),
  (0x1FAE0, 0x1FAE7, prExtendedPictographic),
  (0x1FAE8, 0x1FAEF, prExtendedPictographic),
  (0x1FAF0, 0x1FAF6, prExtendedPictographic),
  (0x1FAF7, 0x1FAFF, prExtendedPictographic),
  (0x1FC00, 0x1FFFD, prExtendedPictographic),
  (0xE0000, 0xE0000, prControl),
  (0xE0001, 0xE0001, prControl),
  (0xE0002, 0xE001F, prControl),
  (0xE0020, 0xE007F, prExtend),
  (0xE0080, 0xE00FF, prControl),
  (0xE0100, 0xE01EF, prExtend),
  (0xE01F0, 0xE0FFF, prControl)]

/-- /repo/runewidth/uniseg/graphemeproperties.go:12-1891 `graphemeCodePoints` -/
def graphemeCodePoints : List (Nat × Nat × Nat) :=
  graphemeCodePoints_0 ++ (graphemeCodePoints_1 ++ (graphemeCodePoints_2 ++ (graphemeCodePoints_3 ++ (graphemeCodePoints_4 ++ (graphemeCodePoints_5 ++ (graphemeCodePoints_6 ++ (graphemeCodePoints_7 ++ (graphemeCodePoints_8 ++ (graphemeCodePoints_9 ++ (graphemeCodePoints_10 ++ (graphemeCodePoints_11 ++ (graphemeCodePoints_12 ++ (graphemeCodePoints_13 ++ (graphemeCodePoints_14 ++ (graphemeCodePoints_15 ++ (graphemeCodePoints_16 ++ (graphemeCodePoints_17 ++ (graphemeCodePoints_18 ++ (graphemeCodePoints_19 ++ (graphemeCodePoints_20 ++ (graphemeCodePoints_21 ++ (graphemeCodePoints_22 ++ (graphemeCodePoints_23 ++ (graphemeCodePoints_24 ++ (graphemeCodePoints_25 ++ (graphemeCodePoints_26 ++ (graphemeCodePoints_27 ++ (graphemeCodePoints_28 ++ (graphemeCodePoints_29)))))))))))))))))))))))))))))

end GoTable
