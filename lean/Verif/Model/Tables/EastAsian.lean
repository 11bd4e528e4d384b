import Verif.Model.Tables.Props
/-! Generated by tools/gen_tables.py from /repo/runewidth/uniseg/eastasianwidth.go. -/

namespace GoTable

/-- rows 0..63 of `eastAsianWidth` -/
def eastAsianWidth_0 : List (Nat × Nat × Nat) := [
  (0x0000, 0x001F, prN),
  (0x0020, 0x0020, prNa),
  (0x0021, 0x0023, prNa),
  (0x0024, 0x0024, prNa),
  (0x0025, 0x0027, prNa),
  (0x0028, 0x0028, prNa),
  (0x0029, 0x0029, prNa),
  (0x002A, 0x002A, prNa),
  (0x002B, 0x002B, prNa),
  (0x002C, 0x002C, prNa),
  (0x002D, 0x002D, prNa),
  (0x002E, 0x002F, prNa),
  (0x0030, 0x0039, prNa),
  (0x003A, 0x003B, prNa),
  (0x003C, 0x003E, prNa),
  (0x003F, 0x0040, prNa),
  (0x0041, 0x005A, prNa),
  (0x005B, 0x005B, prNa),
  (0x005C, 0x005C, prNa),
  (0x005D, 0x005D, prNa),
  (0x005E, 0x005E, prNa),
  (0x005F, 0x005F, prNa),
  (0x0060, 0x0060, prNa),
  (0x0061, 0x007A, prNa),
  (0x007B, 0x007B, prNa),
  (0x007C, 0x007C, prNa),
  (0x007D, 0x007D, prNa),
  (0x007E, 0x007E, prNa),
  (0x007F, 0x007F, prN),
  (0x0080, 0x009F, prN),
  (0x00A0, 0x00A0, prN),
  (0x00A1, 0x00A1, prA),
  (0x00A2, 0x00A3, prNa),
  (0x00A4, 0x00A4, prA),
  (0x00A5, 0x00A5, prNa),
  (0x00A6, 0x00A6, prNa),
  (0x00A7, 0x00A7, prA),
  (0x00A8, 0x00A8, prA),
  (0x00A9, 0x00A9, prN),
  (0x00AA, 0x00AA, prA),
  (0x00AB, 0x00AB, prN),
  (0x00AC, 0x00AC, prNa),
  (0x00AD, 0x00AD, prA),
  (0x00AE, 0x00AE, prA),
  (0x00AF, 0x00AF, prNa),
  (0x00B0, 0x00B0, prA),
  (0x00B1, 0x00B1, prA),
  (0x00B2, 0x00B3, prA),
  (0x00B4, 0x00B4, prA),
  (0x00B5, 0x00B5, prN),
  (0x00B6, 0x00B7, prA),
  (0x00B8, 0x00B8, prA),
  (0x00B9, 0x00B9, prA),
  (0x00BA, 0x00BA, prA),
  (0x00BB, 0x00BB, prN),
  (0x00BC, 0x00BE, prA),
  (0x00BF, 0x00BF, prA),
  (0x00C0, 0x00C5, prN),
  (0x00C6, 0x00C6, prA),
  (0x00C7, 0x00CF, prN),
  (0x00D0, 0x00D0, prA),
  (0x00D1, 0x00D6, prN),
  (0x00D7, 0x00D7, prA),
  (0x00D8, 0x00D8, prA)]

/-- rows 64..127 of `eastAsianWidth` -/
def eastAsianWidth_1 : List (Nat × Nat × Nat) := [
  (0x00D9, 0x00DD, prN),
  (0x00DE, 0x00E1, prA),
  (0x00E2, 0x00E5, prN),
  (0x00E6, 0x00E6, prA),
  (0x00E7, 0x00E7, prN),
  (0x00E8, 0x00EA, prA),
  (0x00EB, 0x00EB, prN),
  (0x00EC, 0x00ED, prA),
  (0x00EE, 0x00EF, prN),
  (0x00F0, 0x00F0, prA),
  (0x00F1, 0x00F1, prN),
  (0x00F2, 0x00F3, prA),
  (0x00F4, 0x00F6, prN),
  (0x00F7, 0x00F7, prA),
  (0x00F8, 0x00FA, prA),
  (0x00FB, 0x00FB, prN),
  (0x00FC, 0x00FC, prA),
  (0x00FD, 0x00FD, prN),
  (0x00FE, 0x00FE, prA),
  (0x00FF, 0x00FF, prN),
  (0x0100, 0x0100, prN),
  (0x0101, 0x0101, prA),
  (0x0102, 0x0110, prN),
  (0x0111, 0x0111, prA),
  (0x0112, 0x0112, prN),
  (0x0113, 0x0113, prA),
  (0x0114, 0x011A, prN),
  (0x011B, 0x011B, prA),
  (0x011C, 0x0125, prN),
  (0x0126, 0x0127, prA),
  (0x0128, 0x012A, prN),
  (0x012B, 0x012B, prA),
  (0x012C, 0x0130, prN),
  (0x0131, 0x0133, prA),
  (0x0134, 0x0137, prN),
  (0x0138, 0x0138, prA),
  (0x0139, 0x013E, prN),
  (0x013F, 0x0142, prA),
  (0x0143, 0x0143, prN),
  (0x0144, 0x0144, prA),
  (0x0145, 0x0147, prN),
  (0x0148, 0x014B, prA),
  (0x014C, 0x014C, prN),
  (0x014D, 0x014D, prA),
  (0x014E, 0x0151, prN),
  (0x0152, 0x0153, prA),
  (0x0154, 0x0165, prN),
  (0x0166, 0x0167, prA),
  (0x0168, 0x016A, prN),
  (0x016B, 0x016B, prA),
  (0x016C, 0x017F, prN),
  (0x0180, 0x01BA, prN),
  (0x01BB, 0x01BB, prN),
  (0x01BC, 0x01BF, prN),
  (0x01C0, 0x01C3, prN),
  (0x01C4, 0x01CD, prN),
  (0x01CE, 0x01CE, prA),
  (0x01CF, 0x01CF, prN),
  (0x01D0, 0x01D0, prA),
  (0x01D1, 0x01D1, prN),
  (0x01D2, 0x01D2, prA),
  (0x01D3, 0x01D3, prN),
  (0x01D4, 0x01D4, prA),
  (0x01D5, 0x01D5, prN)]

/-- rows 128..191 of `eastAsianWidth` -/
def eastAsianWidth_2 : List (Nat × Nat × Nat) := [
  (0x01D6, 0x01D6, prA),
  (0x01D7, 0x01D7, prN),
  (0x01D8, 0x01D8, prA),
  (0x01D9, 0x01D9, prN),
  (0x01DA, 0x01DA, prA),
  (0x01DB, 0x01DB, prN),
  (0x01DC, 0x01DC, prA),
  (0x01DD, 0x024F, prN),
  (0x0250, 0x0250, prN),
  (0x0251, 0x0251, prA),
  (0x0252, 0x0260, prN),
  (0x0261, 0x0261, prA),
  (0x0262, 0x0293, prN),
  (0x0294, 0x0294, prN),
  (0x0295, 0x02AF, prN),
  (0x02B0, 0x02C1, prN),
  (0x02C2, 0x02C3, prN),
  (0x02C4, 0x02C4, prA),
  (0x02C5, 0x02C5, prN),
  (0x02C6, 0x02C6, prN),
  (0x02C7, 0x02C7, prA),
  (0x02C8, 0x02C8, prN),
  (0x02C9, 0x02CB, prA),
  (0x02CC, 0x02CC, prN),
  (0x02CD, 0x02CD, prA),
  (0x02CE, 0x02CF, prN),
  (0x02D0, 0x02D0, prA),
  (0x02D1, 0x02D1, prN),
  (0x02D2, 0x02D7, prN),
  (0x02D8, 0x02DB, prA),
  (0x02DC, 0x02DC, prN),
  (0x02DD, 0x02DD, prA),
  (0x02DE, 0x02DE, prN),
  (0x02DF, 0x02DF, prA),
  (0x02E0, 0x02E4, prN),
  (0x02E5, 0x02EB, prN),
  (0x02EC, 0x02EC, prN),
  (0x02ED, 0x02ED, prN),
  (0x02EE, 0x02EE, prN),
  (0x02EF, 0x02FF, prN),
  (0x0300, 0x036F, prA),
  (0x0370, 0x0373, prN),
  (0x0374, 0x0374, prN),
  (0x0375, 0x0375, prN),
  (0x0376, 0x0377, prN),
  (0x037A, 0x037A, prN),
  (0x037B, 0x037D, prN),
  (0x037E, 0x037E, prN),
  (0x037F, 0x037F, prN),
  (0x0384, 0x0385, prN),
  (0x0386, 0x0386, prN),
  (0x0387, 0x0387, prN),
  (0x0388, 0x038A, prN),
  (0x038C, 0x038C, prN),
  (0x038E, 0x0390, prN),
  (0x0391, 0x03A1, prA),
  (0x03A3, 0x03A9, prA),
  (0x03AA, 0x03B0, prN),
  (0x03B1, 0x03C1, prA),
  (0x03C2, 0x03C2, prN),
  (0x03C3, 0x03C9, prA),
  (0x03CA, 0x03F5, prN),
  (0x03F6, 0x03F6, prN),
  (0x03F7, 0x03FF, prN)]

/-- rows 192..255 of `eastAsianWidth` -/
def eastAsianWidth_3 : List (Nat × Nat × Nat) := [
  (0x0400, 0x0400, prN),
  (0x0401, 0x0401, prA),
  (0x0402, 0x040F, prN),
  (0x0410, 0x044F, prA),
  (0x0450, 0x0450, prN),
  (0x0451, 0x0451, prA),
  (0x0452, 0x0481, prN),
  (0x0482, 0x0482, prN),
  (0x0483, 0x0487, prN),
  (0x0488, 0x0489, prN),
  (0x048A, 0x04FF, prN),
  (0x0500, 0x052F, prN),
  (0x0531, 0x0556, prN),
  (0x0559, 0x0559, prN),
  (0x055A, 0x055F, prN),
  (0x0560, 0x0588, prN),
  (0x0589, 0x0589, prN),
  (0x058A, 0x058A, prN),
  (0x058D, 0x058E, prN),
  (0x058F, 0x058F, prN),
  (0x0591, 0x05BD, prN),
  (0x05BE, 0x05BE, prN),
  (0x05BF, 0x05BF, prN),
  (0x05C0, 0x05C0, prN),
  (0x05C1, 0x05C2, prN),
  (0x05C3, 0x05C3, prN),
  (0x05C4, 0x05C5, prN),
  (0x05C6, 0x05C6, prN),
  (0x05C7, 0x05C7, prN),
  (0x05D0, 0x05EA, prN),
  (0x05EF, 0x05F2, prN),
  (0x05F3, 0x05F4, prN),
  (0x0600, 0x0605, prN),
  (0x0606, 0x0608, prN),
  (0x0609, 0x060A, prN),
  (0x060B, 0x060B, prN),
  (0x060C, 0x060D, prN),
  (0x060E, 0x060F, prN),
  (0x0610, 0x061A, prN),
  (0x061B, 0x061B, prN),
  (0x061C, 0x061C, prN),
  (0x061D, 0x061F, prN),
  (0x0620, 0x063F, prN),
  (0x0640, 0x0640, prN),
  (0x0641, 0x064A, prN),
  (0x064B, 0x065F, prN),
  (0x0660, 0x0669, prN),
  (0x066A, 0x066D, prN),
  (0x066E, 0x066F, prN),
  (0x0670, 0x0670, prN),
  (0x0671, 0x06D3, prN),
  (0x06D4, 0x06D4, prN),
  (0x06D5, 0x06D5, prN),
  (0x06D6, 0x06DC, prN),
  (0x06DD, 0x06DD, prN),
  (0x06DE, 0x06DE, prN),
  (0x06DF, 0x06E4, prN),
  (0x06E5, 0x06E6, prN),
  (0x06E7, 0x06E8, prN),
  (0x06E9, 0x06E9, prN),
  (0x06EA, 0x06ED, prN),
  (0x06EE, 0x06EF, prN),
  (0x06F0, 0x06F9, prN),
  (0x06FA, 0x06FC, prN)]

/-- rows 256..319 of `eastAsianWidth` -/
def eastAsianWidth_4 : List (Nat × Nat × Nat) := [
  (0x06FD, 0x06FE, prN),
  (0x06FF, 0x06FF, prN),
  (0x0700, 0x070D, prN),
  (0x070F, 0x070F, prN),
  (0x0710, 0x0710, prN),
  (0x0711, 0x0711, prN),
  (0x0712, 0x072F, prN),
  (0x0730, 0x074A, prN),
  (0x074D, 0x074F, prN),
  (0x0750, 0x077F, prN),
  (0x0780, 0x07A5, prN),
  (0x07A6, 0x07B0, prN),
  (0x07B1, 0x07B1, prN),
  (0x07C0, 0x07C9, prN),
  (0x07CA, 0x07EA, prN),
  (0x07EB, 0x07F3, prN),
  (0x07F4, 0x07F5, prN),
  (0x07F6, 0x07F6, prN),
  (0x07F7, 0x07F9, prN),
  (0x07FA, 0x07FA, prN),
  (0x07FD, 0x07FD, prN),
  (0x07FE, 0x07FF, prN),
  (0x0800, 0x0815, prN),
  (0x0816, 0x0819, prN),
  (0x081A, 0x081A, prN),
  (0x081B, 0x0823, prN),
  (0x0824, 0x0824, prN),
  (0x0825, 0x0827, prN),
  (0x0828, 0x0828, prN),
  (0x0829, 0x082D, prN),
  (0x0830, 0x083E, prN),
  (0x0840, 0x0858, prN),
  (0x0859, 0x085B, prN),
  (0x085E, 0x085E, prN),
  (0x0860, 0x086A, prN),
  (0x0870, 0x0887, prN),
  (0x0888, 0x0888, prN),
  (0x0889, 0x088E, prN),
  (0x0890, 0x0891, prN),
  (0x0898, 0x089F, prN),
  (0x08A0, 0x08C8, prN),
  (0x08C9, 0x08C9, prN),
  (0x08CA, 0x08E1, prN),
  (0x08E2, 0x08E2, prN),
  (0x08E3, 0x08FF, prN),
  (0x0900, 0x0902, prN),
  (0x0903, 0x0903, prN),
  (0x0904, 0x0939, prN),
  (0x093A, 0x093A, prN),
  (0x093B, 0x093B, prN),
  (0x093C, 0x093C, prN),
  (0x093D, 0x093D, prN),
  (0x093E, 0x0940, prN),
  (0x0941, 0x0948, prN),
  (0x0949, 0x094C, prN),
  (0x094D, 0x094D, prN),
  (0x094E, 0x094F, prN),
  (0x0950, 0x0950, prN),
  (0x0951, 0x0957, prN),
  (0x0958, 0x0961, prN),
  (0x0962, 0x0963, prN),
  (0x0964, 0x0965, prN),
  (0x0966, 0x096F, prN),
  (0x0970, 0x0970, prN)]

/-- rows 320..383 of `eastAsianWidth` -/
def eastAsianWidth_5 : List (Nat × Nat × Nat) := [
  (0x0971, 0x0971, prN),
  (0x0972, 0x097F, prN),
  (0x0980, 0x0980, prN),
  (0x0981, 0x0981, prN),
  (0x0982, 0x0983, prN),
  (0x0985, 0x098C, prN),
  (0x098F, 0x0990, prN),
  (0x0993, 0x09A8, prN),
  (0x09AA, 0x09B0, prN),
  (0x09B2, 0x09B2, prN),
  (0x09B6, 0x09B9, prN),
  (0x09BC, 0x09BC, prN),
  (0x09BD, 0x09BD, prN),
  (0x09BE, 0x09C0, prN),
  (0x09C1, 0x09C4, prN),
  (0x09C7, 0x09C8, prN),
  (0x09CB, 0x09CC, prN),
  (0x09CD, 0x09CD, prN),
  (0x09CE, 0x09CE, prN),
  (0x09D7, 0x09D7, prN),
  (0x09DC, 0x09DD, prN),
  (0x09DF, 0x09E1, prN),
  (0x09E2, 0x09E3, prN),
  (0x09E6, 0x09EF, prN),
  (0x09F0, 0x09F1, prN),
  (0x09F2, 0x09F3, prN),
  (0x09F4, 0x09F9, prN),
  (0x09FA, 0x09FA, prN),
  (0x09FB, 0x09FB, prN),
  (0x09FC, 0x09FC, prN),
  (0x09FD, 0x09FD, prN),
  (0x09FE, 0x09FE, prN),
  (0x0A01, 0x0A02, prN),
  (0x0A03, 0x0A03, prN),
  (0x0A05, 0x0A0A, prN),
  (0x0A0F, 0x0A10, prN),
  (0x0A13, 0x0A28, prN),
  (0x0A2A, 0x0A30, prN),
  (0x0A32, 0x0A33, prN),
  (0x0A35, 0x0A36, prN),
  (0x0A38, 0x0A39, prN),
  (0x0A3C, 0x0A3C, prN),
  (0x0A3E, 0x0A40, prN),
  (0x0A41, 0x0A42, prN),
  (0x0A47, 0x0A48, prN),
  (0x0A4B, 0x0A4D, prN),
  (0x0A51, 0x0A51, prN),
  (0x0A59, 0x0A5C, prN),
  (0x0A5E, 0x0A5E, prN),
  (0x0A66, 0x0A6F, prN),
  (0x0A70, 0x0A71, prN),
  (0x0A72, 0x0A74, prN),
  (0x0A75, 0x0A75, prN),
  (0x0A76, 0x0A76, prN),
  (0x0A81, 0x0A82, prN),
  (0x0A83, 0x0A83, prN),
  (0x0A85, 0x0A8D, prN),
  (0x0A8F, 0x0A91, prN),
  (0x0A93, 0x0AA8, prN),
  (0x0AAA, 0x0AB0, prN),
  (0x0AB2, 0x0AB3, prN),
  (0x0AB5, 0x0AB9, prN),
  (0x0ABC, 0x0ABC, prN),
  (0x0ABD, 0x0ABD, prN)]

/-- rows 384..447 of `eastAsianWidth` -/
def eastAsianWidth_6 : List (Nat × Nat × Nat) := [
  (0x0ABE, 0x0AC0, prN),
  (0x0AC1, 0x0AC5, prN),
  (0x0AC7, 0x0AC8, prN),
  (0x0AC9, 0x0AC9, prN),
  (0x0ACB, 0x0ACC, prN),
  (0x0ACD, 0x0ACD, prN),
  (0x0AD0, 0x0AD0, prN),
  (0x0AE0, 0x0AE1, prN),
  (0x0AE2, 0x0AE3, prN),
  (0x0AE6, 0x0AEF, prN),
  (0x0AF0, 0x0AF0, prN),
  (0x0AF1, 0x0AF1, prN),
  (0x0AF9, 0x0AF9, prN),
  (0x0AFA, 0x0AFF, prN),
  (0x0B01, 0x0B01, prN),
  (0x0B02, 0x0B03, prN),
  (0x0B05, 0x0B0C, prN),
  (0x0B0F, 0x0B10, prN),
  (0x0B13, 0x0B28, prN),
  (0x0B2A, 0x0B30, prN),
  (0x0B32, 0x0B33, prN),
  (0x0B35, 0x0B39, prN),
  (0x0B3C, 0x0B3C, prN),
  (0x0B3D, 0x0B3D, prN),
  (0x0B3E, 0x0B3E, prN),
  (0x0B3F, 0x0B3F, prN),
  (0x0B40, 0x0B40, prN),
  (0x0B41, 0x0B44, prN),
  (0x0B47, 0x0B48, prN),
  (0x0B4B, 0x0B4C, prN),
  (0x0B4D, 0x0B4D, prN),
  (0x0B55, 0x0B56, prN),
  (0x0B57, 0x0B57, prN),
  (0x0B5C, 0x0B5D, prN),
  (0x0B5F, 0x0B61, prN),
  (0x0B62, 0x0B63, prN),
  (0x0B66, 0x0B6F, prN),
  (0x0B70, 0x0B70, prN),
  (0x0B71, 0x0B71, prN),
  (0x0B72, 0x0B77, prN),
  (0x0B82, 0x0B82, prN),
  (0x0B83, 0x0B83, prN),
  (0x0B85, 0x0B8A, prN),
  (0x0B8E, 0x0B90, prN),
  (0x0B92, 0x0B95, prN),
  (0x0B99, 0x0B9A, prN),
  (0x0B9C, 0x0B9C, prN),
  (0x0B9E, 0x0B9F, prN),
  (0x0BA3, 0x0BA4, prN),
  (0x0BA8, 0x0BAA, prN),
  (0x0BAE, 0x0BB9, prN),
  (0x0BBE, 0x0BBF, prN),
  (0x0BC0, 0x0BC0, prN),
  (0x0BC1, 0x0BC2, prN),
  (0x0BC6, 0x0BC8, prN),
  (0x0BCA, 0x0BCC, prN),
  (0x0BCD, 0x0BCD, prN),
  (0x0BD0, 0x0BD0, prN),
  (0x0BD7, 0x0BD7, prN),
  (0x0BE6, 0x0BEF, prN),
  (0x0BF0, 0x0BF2, prN),
  (0x0BF3, 0x0BF8, prN),
  (0x0BF9, 0x0BF9, prN),
  (0x0BFA, 0x0BFA, prN)]

/-- rows 448..511 of `eastAsianWidth` -/
def eastAsianWidth_7 : List (Nat × Nat × Nat) := [
  (0x0C00, 0x0C00, prN),
  (0x0C01, 0x0C03, prN),
  (0x0C04, 0x0C04, prN),
  (0x0C05, 0x0C0C, prN),
  (0x0C0E, 0x0C10, prN),
  (0x0C12, 0x0C28, prN),
  (0x0C2A, 0x0C39, prN),
  (0x0C3C, 0x0C3C, prN),
  (0x0C3D, 0x0C3D, prN),
  (0x0C3E, 0x0C40, prN),
  (0x0C41, 0x0C44, prN),
  (0x0C46, 0x0C48, prN),
  (0x0C4A, 0x0C4D, prN),
  (0x0C55, 0x0C56, prN),
  (0x0C58, 0x0C5A, prN),
  (0x0C5D, 0x0C5D, prN),
  (0x0C60, 0x0C61, prN),
  (0x0C62, 0x0C63, prN),
  (0x0C66, 0x0C6F, prN),
  (0x0C77, 0x0C77, prN),
  (0x0C78, 0x0C7E, prN),
  (0x0C7F, 0x0C7F, prN),
  (0x0C80, 0x0C80, prN),
  (0x0C81, 0x0C81, prN),
  (0x0C82, 0x0C83, prN),
  (0x0C84, 0x0C84, prN),
  (0x0C85, 0x0C8C, prN),
  (0x0C8E, 0x0C90, prN),
  (0x0C92, 0x0CA8, prN),
  (0x0CAA, 0x0CB3, prN),
  (0x0CB5, 0x0CB9, prN),
  (0x0CBC, 0x0CBC, prN),
  (0x0CBD, 0x0CBD, prN),
  (0x0CBE, 0x0CBE, prN),
  (0x0CBF, 0x0CBF, prN),
  (0x0CC0, 0x0CC4, prN),
  (0x0CC6, 0x0CC6, prN),
  (0x0CC7, 0x0CC8, prN),
  (0x0CCA, 0x0CCB, prN),
  (0x0CCC, 0x0CCD, prN),
  (0x0CD5, 0x0CD6, prN),
  (0x0CDD, 0x0CDE, prN),
  (0x0CE0, 0x0CE1, prN),
  (0x0CE2, 0x0CE3, prN),
  (0x0CE6, 0x0CEF, prN),
  (0x0CF1, 0x0CF2, prN),
  (0x0D00, 0x0D01, prN),
  (0x0D02, 0x0D03, prN),
  (0x0D04, 0x0D0C, prN),
  (0x0D0E, 0x0D10, prN),
  (0x0D12, 0x0D3A, prN),
  (0x0D3B, 0x0D3C, prN),
  (0x0D3D, 0x0D3D, prN),
  (0x0D3E, 0x0D40, prN),
  (0x0D41, 0x0D44, prN),
  (0x0D46, 0x0D48, prN),
  (0x0D4A, 0x0D4C, prN),
  (0x0D4D, 0x0D4D, prN),
  (0x0D4E, 0x0D4E, prN),
  (0x0D4F, 0x0D4F, prN),
  (0x0D54, 0x0D56, prN),
  (0x0D57, 0x0D57, prN),
  (0x0D58, 0x0D5E, prN),
  (0x0D5F, 0x0D61, prN)]

/-- rows 512..575 of `eastAsianWidth` -/
def eastAsianWidth_8 : List (Nat × Nat × Nat) := [
  (0x0D62, 0x0D63, prN),
  (0x0D66, 0x0D6F, prN),
  (0x0D70, 0x0D78, prN),
  (0x0D79, 0x0D79, prN),
  (0x0D7A, 0x0D7F, prN),
  (0x0D81, 0x0D81, prN),
  (0x0D82, 0x0D83, prN),
  (0x0D85, 0x0D96, prN),
  (0x0D9A, 0x0DB1, prN),
  (0x0DB3, 0x0DBB, prN),
  (0x0DBD, 0x0DBD, prN),
  (0x0DC0, 0x0DC6, prN),
  (0x0DCA, 0x0DCA, prN),
  (0x0DCF, 0x0DD1, prN),
  (0x0DD2, 0x0DD4, prN),
  (0x0DD6, 0x0DD6, prN),
  (0x0DD8, 0x0DDF, prN),
  (0x0DE6, 0x0DEF, prN),
  (0x0DF2, 0x0DF3, prN),
  (0x0DF4, 0x0DF4, prN),
  (0x0E01, 0x0E30, prN),
  (0x0E31, 0x0E31, prN),
  (0x0E32, 0x0E33, prN),
  (0x0E34, 0x0E3A, prN),
  (0x0E3F, 0x0E3F, prN),
  (0x0E40, 0x0E45, prN),
  (0x0E46, 0x0E46, prN),
  (0x0E47, 0x0E4E, prN),
  (0x0E4F, 0x0E4F, prN),
  (0x0E50, 0x0E59, prN),
  (0x0E5A, 0x0E5B, prN),
  (0x0E81, 0x0E82, prN),
  (0x0E84, 0x0E84, prN),
  (0x0E86, 0x0E8A, prN),
  (0x0E8C, 0x0EA3, prN),
  (0x0EA5, 0x0EA5, prN),
  (0x0EA7, 0x0EB0, prN),
  (0x0EB1, 0x0EB1, prN),
  (0x0EB2, 0x0EB3, prN),
  (0x0EB4, 0x0EBC, prN),
  (0x0EBD, 0x0EBD, prN),
  (0x0EC0, 0x0EC4, prN),
  (0x0EC6, 0x0EC6, prN),
  (0x0EC8, 0x0ECD, prN),
  (0x0ED0, 0x0ED9, prN),
  (0x0EDC, 0x0EDF, prN),
  (0x0F00, 0x0F00, prN),
  (0x0F01, 0x0F03, prN),
  (0x0F04, 0x0F12, prN),
  (0x0F13, 0x0F13, prN),
  (0x0F14, 0x0F14, prN),
  (0x0F15, 0x0F17, prN),
  (0x0F18, 0x0F19, prN),
  (0x0F1A, 0x0F1F, prN),
  (0x0F20, 0x0F29, prN),
  (0x0F2A, 0x0F33, prN),
  (0x0F34, 0x0F34, prN),
  (0x0F35, 0x0F35, prN),
  (0x0F36, 0x0F36, prN),
  (0x0F37, 0x0F37, prN),
  (0x0F38, 0x0F38, prN),
  (0x0F39, 0x0F39, prN),
  (0x0F3A, 0x0F3A, prN),
  (0x0F3B, 0x0F3B, prN)]

/-- rows 576..639 of `eastAsianWidth` -/
def eastAsianWidth_9 : List (Nat × Nat × Nat) := [
  (0x0F3C, 0x0F3C, prN),
  (0x0F3D, 0x0F3D, prN),
  (0x0F3E, 0x0F3F, prN),
  (0x0F40, 0x0F47, prN),
  (0x0F49, 0x0F6C, prN),
  (0x0F71, 0x0F7E, prN),
  (0x0F7F, 0x0F7F, prN),
  (0x0F80, 0x0F84, prN),
  (0x0F85, 0x0F85, prN),
  (0x0F86, 0x0F87, prN),
  (0x0F88, 0x0F8C, prN),
  (0x0F8D, 0x0F97, prN),
  (0x0F99, 0x0FBC, prN),
  (0x0FBE, 0x0FC5, prN),
  (0x0FC6, 0x0FC6, prN),
  (0x0FC7, 0x0FCC, prN),
  (0x0FCE, 0x0FCF, prN),
  (0x0FD0, 0x0FD4, prN),
  (0x0FD5, 0x0FD8, prN),
  (0x0FD9, 0x0FDA, prN),
  (0x1000, 0x102A, prN),
  (0x102B, 0x102C, prN),
  (0x102D, 0x1030, prN),
  (0x1031, 0x1031, prN),
  (0x1032, 0x1037, prN),
  (0x1038, 0x1038, prN),
  (0x1039, 0x103A, prN),
  (0x103B, 0x103C, prN),
  (0x103D, 0x103E, prN),
  (0x103F, 0x103F, prN),
  (0x1040, 0x1049, prN),
  (0x104A, 0x104F, prN),
  (0x1050, 0x1055, prN),
  (0x1056, 0x1057, prN),
  (0x1058, 0x1059, prN),
  (0x105A, 0x105D, prN),
  (0x105E, 0x1060, prN),
  (0x1061, 0x1061, prN),
  (0x1062, 0x1064, prN),
  (0x1065, 0x1066, prN),
  (0x1067, 0x106D, prN),
  (0x106E, 0x1070, prN),
  (0x1071, 0x1074, prN),
  (0x1075, 0x1081, prN),
  (0x1082, 0x1082, prN),
  (0x1083, 0x1084, prN),
  (0x1085, 0x1086, prN),
  (0x1087, 0x108C, prN),
  (0x108D, 0x108D, prN),
  (0x108E, 0x108E, prN),
  (0x108F, 0x108F, prN),
  (0x1090, 0x1099, prN),
  (0x109A, 0x109C, prN),
  (0x109D, 0x109D, prN),
  (0x109E, 0x109F, prN),
  (0x10A0, 0x10C5, prN),
  (0x10C7, 0x10C7, prN),
  (0x10CD, 0x10CD, prN),
  (0x10D0, 0x10FA, prN),
  (0x10FB, 0x10FB, prN),
  (0x10FC, 0x10FC, prN),
  (0x10FD, 0x10FF, prN),
  (0x1100, 0x115F, prW),
  (0x1160, 0x11FF, prN)]

/-- rows 640..703 of `eastAsianWidth` -/
def eastAsianWidth_10 : List (Nat × Nat × Nat) := [
  (0x1200, 0x1248, prN),
  (0x124A, 0x124D, prN),
  (0x1250, 0x1256, prN),
  (0x1258, 0x1258, prN),
  (0x125A, 0x125D, prN),
  (0x1260, 0x1288, prN),
  (0x128A, 0x128D, prN),
  (0x1290, 0x12B0, prN),
  (0x12B2, 0x12B5, prN),
  (0x12B8, 0x12BE, prN),
  (0x12C0, 0x12C0, prN),
  (0x12C2, 0x12C5, prN),
  (0x12C8, 0x12D6, prN),
  (0x12D8, 0x1310, prN),
  (0x1312, 0x1315, prN),
  (0x1318, 0x135A, prN),
  (0x135D, 0x135F, prN),
  (0x1360, 0x1368, prN),
  (0x1369, 0x137C, prN),
  (0x1380, 0x138F, prN),
  (0x1390, 0x1399, prN),
  (0x13A0, 0x13F5, prN),
  (0x13F8, 0x13FD, prN),
  (0x1400, 0x1400, prN),
  (0x1401, 0x166C, prN),
  (0x166D, 0x166D, prN),
  (0x166E, 0x166E, prN),
  (0x166F, 0x167F, prN),
  (0x1680, 0x1680, prN),
  (0x1681, 0x169A, prN),
  (0x169B, 0x169B, prN),
  (0x169C, 0x169C, prN),
  (0x16A0, 0x16EA, prN),
  (0x16EB, 0x16ED, prN),
  (0x16EE, 0x16F0, prN),
  (0x16F1, 0x16F8, prN),
  (0x1700, 0x1711, prN),
  (0x1712, 0x1714, prN),
  (0x1715, 0x1715, prN),
  (0x171F, 0x171F, prN),
  (0x1720, 0x1731, prN),
  (0x1732, 0x1733, prN),
  (0x1734, 0x1734, prN),
  (0x1735, 0x1736, prN),
  (0x1740, 0x1751, prN),
  (0x1752, 0x1753, prN),
  (0x1760, 0x176C, prN),
  (0x176E, 0x1770, prN),
  (0x1772, 0x1773, prN),
  (0x1780, 0x17B3, prN),
  (0x17B4, 0x17B5, prN),
  (0x17B6, 0x17B6, prN),
  (0x17B7, 0x17BD, prN),
  (0x17BE, 0x17C5, prN),
  (0x17C6, 0x17C6, prN),
  (0x17C7, 0x17C8, prN),
  (0x17C9, 0x17D3, prN),
  (0x17D4, 0x17D6, prN),
  (0x17D7, 0x17D7, prN),
  (0x17D8, 0x17DA, prN),
  (0x17DB, 0x17DB, prN),
  (0x17DC, 0x17DC, prN),
  (0x17DD, 0x17DD, prN),
  (0x17E0, 0x17E9, prN)]

/-- rows 704..767 of `eastAsianWidth` -/
def eastAsianWidth_11 : List (Nat × Nat × Nat) := [
  (0x17F0, 0x17F9, prN),
  (0x1800, 0x1805, prN),
  (0x1806, 0x1806, prN),
  (0x1807, 0x180A, prN),
  (0x180B, 0x180D, prN),
  (0x180E, 0x180E, prN),
  (0x180F, 0x180F, prN),
  (0x1810, 0x1819, prN),
  (0x1820, 0x1842, prN),
  (0x1843, 0x1843, prN),
  (0x1844, 0x1878, prN),
  (0x1880, 0x1884, prN),
  (0x1885, 0x1886, prN),
  (0x1887, 0x18A8, prN),
  (0x18A9, 0x18A9, prN),
  (0x18AA, 0x18AA, prN),
  (0x18B0, 0x18F5, prN),
  (0x1900, 0x191E, prN),
  (0x1920, 0x1922, prN),
  (0x1923, 0x1926, prN),
  (0x1927, 0x1928, prN),
  (0x1929, 0x192B, prN),
  (0x1930, 0x1931, prN),
  (0x1932, 0x1932, prN),
  (0x1933, 0x1938, prN),
  (0x1939, 0x193B, prN),
  (0x1940, 0x1940, prN),
  (0x1944, 0x1945, prN),
  (0x1946, 0x194F, prN),
  (0x1950, 0x196D, prN),
  (0x1970, 0x1974, prN),
  (0x1980, 0x19AB, prN),
  (0x19B0, 0x19C9, prN),
  (0x19D0, 0x19D9, prN),
  (0x19DA, 0x19DA, prN),
  (0x19DE, 0x19DF, prN),
  (0x19E0, 0x19FF, prN),
  (0x1A00, 0x1A16, prN),
  (0x1A17, 0x1A18, prN),
  (0x1A19, 0x1A1A, prN),
  (0x1A1B, 0x1A1B, prN),
  (0x1A1E, 0x1A1F, prN),
  (0x1A20, 0x1A54, prN),
  (0x1A55, 0x1A55, prN),
  (0x1A56, 0x1A56, prN),
  (0x1A57, 0x1A57, prN),
  (0x1A58, 0x1A5E, prN),
  (0x1A60, 0x1A60, prN),
  (0x1A61, 0x1A61, prN),
  (0x1A62, 0x1A62, prN),
  (0x1A63, 0x1A64, prN),
  (0x1A65, 0x1A6C, prN),
  (0x1A6D, 0x1A72, prN),
  (0x1A73, 0x1A7C, prN),
  (0x1A7F, 0x1A7F, prN),
  (0x1A80, 0x1A89, prN),
  (0x1A90, 0x1A99, prN),
  (0x1AA0, 0x1AA6, prN),
  (0x1AA7, 0x1AA7, prN),
  (0x1AA8, 0x1AAD, prN),
  (0x1AB0, 0x1ABD, prN),
  (0x1ABE, 0x1ABE, prN),
  (0x1ABF, 0x1ACE, prN),
  (0x1B00, 0x1B03, prN)]

/-- rows 768..831 of `eastAsianWidth` -/
def eastAsianWidth_12 : List (Nat × Nat × Nat) := [
  (0x1B04, 0x1B04, prN),
  (0x1B05, 0x1B33, prN),
  (0x1B34, 0x1B34, prN),
  (0x1B35, 0x1B35, prN),
  (0x1B36, 0x1B3A, prN),
  (0x1B3B, 0x1B3B, prN),
  (0x1B3C, 0x1B3C, prN),
  (0x1B3D, 0x1B41, prN),
  (0x1B42, 0x1B42, prN),
  (0x1B43, 0x1B44, prN),
  (0x1B45, 0x1B4C, prN),
  (0x1B50, 0x1B59, prN),
  (0x1B5A, 0x1B60, prN),
  (0x1B61, 0x1B6A, prN),
  (0x1B6B, 0x1B73, prN),
  (0x1B74, 0x1B7C, prN),
  (0x1B7D, 0x1B7E, prN),
  (0x1B80, 0x1B81, prN),
  (0x1B82, 0x1B82, prN),
  (0x1B83, 0x1BA0, prN),
  (0x1BA1, 0x1BA1, prN),
  (0x1BA2, 0x1BA5, prN),
  (0x1BA6, 0x1BA7, prN),
  (0x1BA8, 0x1BA9, prN),
  (0x1BAA, 0x1BAA, prN),
  (0x1BAB, 0x1BAD, prN),
  (0x1BAE, 0x1BAF, prN),
  (0x1BB0, 0x1BB9, prN),
  (0x1BBA, 0x1BBF, prN),
  (0x1BC0, 0x1BE5, prN),
  (0x1BE6, 0x1BE6, prN),
  (0x1BE7, 0x1BE7, prN),
  (0x1BE8, 0x1BE9, prN),
  (0x1BEA, 0x1BEC, prN),
  (0x1BED, 0x1BED, prN),
  (0x1BEE, 0x1BEE, prN),
  (0x1BEF, 0x1BF1, prN),
  (0x1BF2, 0x1BF3, prN),
  (0x1BFC, 0x1BFF, prN),
  (0x1C00, 0x1C23, prN),
  (0x1C24, 0x1C2B, prN),
  (0x1C2C, 0x1C33, prN),
  (0x1C34, 0x1C35, prN),
  (0x1C36, 0x1C37, prN),
  (0x1C3B, 0x1C3F, prN),
  (0x1C40, 0x1C49, prN),
  (0x1C4D, 0x1C4F, prN),
  (0x1C50, 0x1C59, prN),
  (0x1C5A, 0x1C77, prN),
  (0x1C78, 0x1C7D, prN),
  (0x1C7E, 0x1C7F, prN),
  (0x1C80, 0x1C88, prN),
  (0x1C90, 0x1CBA, prN),
  (0x1CBD, 0x1CBF, prN),
  (0x1CC0, 0x1CC7, prN),
  (0x1CD0, 0x1CD2, prN),
  (0x1CD3, 0x1CD3, prN),
  (0x1CD4, 0x1CE0, prN),
  (0x1CE1, 0x1CE1, prN),
  (0x1CE2, 0x1CE8, prN),
  (0x1CE9, 0x1CEC, prN),
  (0x1CED, 0x1CED, prN),
  (0x1CEE, 0x1CF3, prN),
  (0x1CF4, 0x1CF4, prN)]

/-- rows 832..895 of `eastAsianWidth` -/
def eastAsianWidth_13 : List (Nat × Nat × Nat) := [
  (0x1CF5, 0x1CF6, prN),
  (0x1CF7, 0x1CF7, prN),
  (0x1CF8, 0x1CF9, prN),
  (0x1CFA, 0x1CFA, prN),
  (0x1D00, 0x1D2B, prN),
  (0x1D2C, 0x1D6A, prN),
  (0x1D6B, 0x1D77, prN),
  (0x1D78, 0x1D78, prN),
  (0x1D79, 0x1D7F, prN),
  (0x1D80, 0x1D9A, prN),
  (0x1D9B, 0x1DBF, prN),
  (0x1DC0, 0x1DFF, prN),
  (0x1E00, 0x1EFF, prN),
  (0x1F00, 0x1F15, prN),
  (0x1F18, 0x1F1D, prN),
  (0x1F20, 0x1F45, prN),
  (0x1F48, 0x1F4D, prN),
  (0x1F50, 0x1F57, prN),
  (0x1F59, 0x1F59, prN),
  (0x1F5B, 0x1F5B, prN),
  (0x1F5D, 0x1F5D, prN),
  (0x1F5F, 0x1F7D, prN),
  (0x1F80, 0x1FB4, prN),
  (0x1FB6, 0x1FBC, prN),
  (0x1FBD, 0x1FBD, prN),
  (0x1FBE, 0x1FBE, prN),
  (0x1FBF, 0x1FC1, prN),
  (0x1FC2, 0x1FC4, prN),
  (0x1FC6, 0x1FCC, prN),
  (0x1FCD, 0x1FCF, prN),
  (0x1FD0, 0x1FD3, prN),
  (0x1FD6, 0x1FDB, prN),
  (0x1FDD, 0x1FDF, prN),
  (0x1FE0, 0x1FEC, prN),
  (0x1FED, 0x1FEF, prN),
  (0x1FF2, 0x1FF4, prN),
  (0x1FF6, 0x1FFC, prN),
  (0x1FFD, 0x1FFE, prN),
  (0x2000, 0x200A, prN),
  (0x200B, 0x200F, prN),
  (0x2010, 0x2010, prA),
  (0x2011, 0x2012, prN),
  (0x2013, 0x2015, prA),
  (0x2016, 0x2016, prA),
  (0x2017, 0x2017, prN),
  (0x2018, 0x2018, prA),
  (0x2019, 0x2019, prA),
  (0x201A, 0x201A, prN),
  (0x201B, 0x201B, prN),
  (0x201C, 0x201C, prA),
  (0x201D, 0x201D, prA),
  (0x201E, 0x201E, prN),
  (0x201F, 0x201F, prN),
  (0x2020, 0x2022, prA),
  (0x2023, 0x2023, prN),
  (0x2024, 0x2027, prA),
  (0x2028, 0x2028, prN),
  (0x2029, 0x2029, prN),
  (0x202A, 0x202E, prN),
  (0x202F, 0x202F, prN),
  (0x2030, 0x2030, prA),
  (0x2031, 0x2031, prN),
  (0x2032, 0x2033, prA),
  (0x2034, 0x2034, prN)]

/-- rows 896..959 of `eastAsianWidth` -/
def eastAsianWidth_14 : List (Nat × Nat × Nat) := [
  (0x2035, 0x2035, prA),
  (0x2036, 0x2038, prN),
  (0x2039, 0x2039, prN),
  (0x203A, 0x203A, prN),
  (0x203B, 0x203B, prA),
  (0x203C, 0x203D, prN),
  (0x203E, 0x203E, prA),
  (0x203F, 0x2040, prN),
  (0x2041, 0x2043, prN),
  (0x2044, 0x2044, prN),
  (0x2045, 0x2045, prN),
  (0x2046, 0x2046, prN),
  (0x2047, 0x2051, prN),
  (0x2052, 0x2052, prN),
  (0x2053, 0x2053, prN),
  (0x2054, 0x2054, prN),
  (0x2055, 0x205E, prN),
  (0x205F, 0x205F, prN),
  (0x2060, 0x2064, prN),
  (0x2066, 0x206F, prN),
  (0x2070, 0x2070, prN),
  (0x2071, 0x2071, prN),
  (0x2074, 0x2074, prA),
  (0x2075, 0x2079, prN),
  (0x207A, 0x207C, prN),
  (0x207D, 0x207D, prN),
  (0x207E, 0x207E, prN),
  (0x207F, 0x207F, prA),
  (0x2080, 0x2080, prN),
  (0x2081, 0x2084, prA),
  (0x2085, 0x2089, prN),
  (0x208A, 0x208C, prN),
  (0x208D, 0x208D, prN),
  (0x208E, 0x208E, prN),
  (0x2090, 0x209C, prN),
  (0x20A0, 0x20A8, prN),
  (0x20A9, 0x20A9, prH),
  (0x20AA, 0x20AB, prN),
  (0x20AC, 0x20AC, prA),
  (0x20AD, 0x20C0, prN),
  (0x20D0, 0x20DC, prN),
  (0x20DD, 0x20E0, prN),
  (0x20E1, 0x20E1, prN),
  (0x20E2, 0x20E4, prN),
  (0x20E5, 0x20F0, prN),
  (0x2100, 0x2101, prN),
  (0x2102, 0x2102, prN),
  (0x2103, 0x2103, prA),
  (0x2104, 0x2104, prN),
  (0x2105, 0x2105, prA),
  (0x2106, 0x2106, prN),
  (0x2107, 0x2107, prN),
  (0x2108, 0x2108, prN),
  (0x2109, 0x2109, prA),
  (0x210A, 0x2112, prN),
  (0x2113, 0x2113, prA),
  (0x2114, 0x2114, prN),
  (0x2115, 0x2115, prN),
  (0x2116, 0x2116, prA),
  (0x2117, 0x2117, prN),
  (0x2118, 0x2118, prN),
  (0x2119, 0x211D, prN),
  (0x211E, 0x2120, prN),
  (0x2121, 0x2122, prA)]

/-- rows 960..1023 of `eastAsianWidth` -/
def eastAsianWidth_15 : List (Nat × Nat × Nat) := [
  (0x2123, 0x2123, prN),
  (0x2124, 0x2124, prN),
  (0x2125, 0x2125, prN),
  (0x2126, 0x2126, prA),
  (0x2127, 0x2127, prN),
  (0x2128, 0x2128, prN),
  (0x2129, 0x2129, prN),
  (0x212A, 0x212A, prN),
  (0x212B, 0x212B, prA),
  (0x212C, 0x212D, prN),
  (0x212E, 0x212E, prN),
  (0x212F, 0x2134, prN),
  (0x2135, 0x2138, prN),
  (0x2139, 0x2139, prN),
  (0x213A, 0x213B, prN),
  (0x213C, 0x213F, prN),
  (0x2140, 0x2144, prN),
  (0x2145, 0x2149, prN),
  (0x214A, 0x214A, prN),
  (0x214B, 0x214B, prN),
  (0x214C, 0x214D, prN),
  (0x214E, 0x214E, prN),
  (0x214F, 0x214F, prN),
  (0x2150, 0x2152, prN),
  (0x2153, 0x2154, prA),
  (0x2155, 0x215A, prN),
  (0x215B, 0x215E, prA),
  (0x215F, 0x215F, prN),
  (0x2160, 0x216B, prA),
  (0x216C, 0x216F, prN),
  (0x2170, 0x2179, prA),
  (0x217A, 0x2182, prN),
  (0x2183, 0x2184, prN),
  (0x2185, 0x2188, prN),
  (0x2189, 0x2189, prA),
  (0x218A, 0x218B, prN),
  (0x2190, 0x2194, prA),
  (0x2195, 0x2199, prA),
  (0x219A, 0x219B, prN),
  (0x219C, 0x219F, prN),
  (0x21A0, 0x21A0, prN),
  (0x21A1, 0x21A2, prN),
  (0x21A3, 0x21A3, prN),
  (0x21A4, 0x21A5, prN),
  (0x21A6, 0x21A6, prN),
  (0x21A7, 0x21AD, prN),
  (0x21AE, 0x21AE, prN),
  (0x21AF, 0x21B7, prN),
  (0x21B8, 0x21B9, prA),
  (0x21BA, 0x21CD, prN),
  (0x21CE, 0x21CF, prN),
  (0x21D0, 0x21D1, prN),
  (0x21D2, 0x21D2, prA),
  (0x21D3, 0x21D3, prN),
  (0x21D4, 0x21D4, prA),
  (0x21D5, 0x21E6, prN),
  (0x21E7, 0x21E7, prA),
  (0x21E8, 0x21F3, prN),
  (0x21F4, 0x21FF, prN),
  (0x2200, 0x2200, prA),
  (0x2201, 0x2201, prN),
  (0x2202, 0x2203, prA),
  (0x2204, 0x2206, prN),
  (0x2207, 0x2208, prA)]

/-- rows 1024..1087 of `eastAsianWidth` -/
def eastAsianWidth_16 : List (Nat × Nat × Nat) := [
  (0x2209, 0x220A, prN),
  (0x220B, 0x220B, prA),
  (0x220C, 0x220E, prN),
  (0x220F, 0x220F, prA),
  (0x2210, 0x2210, prN),
  (0x2211, 0x2211, prA),
  (0x2212, 0x2214, prN),
  (0x2215, 0x2215, prA),
  (0x2216, 0x2219, prN),
  (0x221A, 0x221A, prA),
  (0x221B, 0x221C, prN),
  (0x221D, 0x2220, prA),
  (0x2221, 0x2222, prN),
  (0x2223, 0x2223, prA),
  (0x2224, 0x2224, prN),
  (0x2225, 0x2225, prA),
  (0x2226, 0x2226, prN),
  (0x2227, 0x222C, prA),
  (0x222D, 0x222D, prN),
  (0x222E, 0x222E, prA),
  (0x222F, 0x2233, prN),
  (0x2234, 0x2237, prA),
  (0x2238, 0x223B, prN),
  (0x223C, 0x223D, prA),
  (0x223E, 0x2247, prN),
  (0x2248, 0x2248, prA),
  (0x2249, 0x224B, prN),
  (0x224C, 0x224C, prA),
  (0x224D, 0x2251, prN),
  (0x2252, 0x2252, prA),
  (0x2253, 0x225F, prN),
  (0x2260, 0x2261, prA),
  (0x2262, 0x2263, prN),
  (0x2264, 0x2267, prA),
  (0x2268, 0x2269, prN),
  (0x226A, 0x226B, prA),
  (0x226C, 0x226D, prN),
  (0x226E, 0x226F, prA),
  (0x2270, 0x2281, prN),
  (0x2282, 0x2283, prA),
  (0x2284, 0x2285, prN),
  (0x2286, 0x2287, prA),
  (0x2288, 0x2294, prN),
  (0x2295, 0x2295, prA),
  (0x2296, 0x2298, prN),
  (0x2299, 0x2299, prA),
  (0x229A, 0x22A4, prN),
  (0x22A5, 0x22A5, prA),
  (0x22A6, 0x22BE, prN),
  (0x22BF, 0x22BF, prA),
  (0x22C0, 0x22FF, prN),
  (0x2300, 0x2307, prN),
  (0x2308, 0x2308, prN),
  (0x2309, 0x2309, prN),
  (0x230A, 0x230A, prN),
  (0x230B, 0x230B, prN),
  (0x230C, 0x2311, prN),
  (0x2312, 0x2312, prA),
  (0x2313, 0x2319, prN),
  (0x231A, 0x231B, prW),
  (0x231C, 0x231F, prN),
  (0x2320, 0x2321, prN),
  (0x2322, 0x2328, prN),
  (0x2329, 0x2329, prW)]

/-- rows 1088..1151 of `eastAsianWidth` -/
def eastAsianWidth_17 : List (Nat × Nat × Nat) := [
  (0x232A, 0x232A, prW),
  (0x232B, 0x237B, prN),
  (0x237C, 0x237C, prN),
  (0x237D, 0x239A, prN),
  (0x239B, 0x23B3, prN),
  (0x23B4, 0x23DB, prN),
  (0x23DC, 0x23E1, prN),
  (0x23E2, 0x23E8, prN),
  (0x23E9, 0x23EC, prW),
  (0x23ED, 0x23EF, prN),
  (0x23F0, 0x23F0, prW),
  (0x23F1, 0x23F2, prN),
  (0x23F3, 0x23F3, prW),
  (0x23F4, 0x23FF, prN),
  (0x2400, 0x2426, prN),
  (0x2440, 0x244A, prN),
  (0x2460, 0x249B, prA),
  (0x249C, 0x24E9, prA),
  (0x24EA, 0x24EA, prN),
  (0x24EB, 0x24FF, prA),
  (0x2500, 0x254B, prA),
  (0x254C, 0x254F, prN),
  (0x2550, 0x2573, prA),
  (0x2574, 0x257F, prN),
  (0x2580, 0x258F, prA),
  (0x2590, 0x2591, prN),
  (0x2592, 0x2595, prA),
  (0x2596, 0x259F, prN),
  (0x25A0, 0x25A1, prA),
  (0x25A2, 0x25A2, prN),
  (0x25A3, 0x25A9, prA),
  (0x25AA, 0x25B1, prN),
  (0x25B2, 0x25B3, prA),
  (0x25B4, 0x25B5, prN),
  (0x25B6, 0x25B6, prA),
  (0x25B7, 0x25B7, prA),
  (0x25B8, 0x25BB, prN),
  (0x25BC, 0x25BD, prA),
  (0x25BE, 0x25BF, prN),
  (0x25C0, 0x25C0, prA),
  (0x25C1, 0x25C1, prA),
  (0x25C2, 0x25C5, prN),
  (0x25C6, 0x25C8, prA),
  (0x25C9, 0x25CA, prN),
  (0x25CB, 0x25CB, prA),
  (0x25CC, 0x25CD, prN),
  (0x25CE, 0x25D1, prA),
  (0x25D2, 0x25E1, prN),
  (0x25E2, 0x25E5, prA),
  (0x25E6, 0x25EE, prN),
  (0x25EF, 0x25EF, prA),
  (0x25F0, 0x25F7, prN),
  (0x25F8, 0x25FC, prN),
  (0x25FD, 0x25FE, prW),
  (0x25FF, 0x25FF, prN),
  (0x2600, 0x2604, prN),
  (0x2605, 0x2606, prA),
  (0x2607, 0x2608, prN),
  (0x2609, 0x2609, prA),
  (0x260A, 0x260D, prN),
  (0x260E, 0x260F, prA),
  (0x2610, 0x2613, prN),
  (0x2614, 0x2615, prW),
  (0x2616, 0x261B, prN)]

/-- rows 1152..1215 of `eastAsianWidth` -/
def eastAsianWidth_18 : List (Nat × Nat × Nat) := [
  (0x261C, 0x261C, prA),
  (0x261D, 0x261D, prN),
  (0x261E, 0x261E, prA),
  (0x261F, 0x263F, prN),
  (0x2640, 0x2640, prA),
  (0x2641, 0x2641, prN),
  (0x2642, 0x2642, prA),
  (0x2643, 0x2647, prN),
  (0x2648, 0x2653, prW),
  (0x2654, 0x265F, prN),
  (0x2660, 0x2661, prA),
  (0x2662, 0x2662, prN),
  (0x2663, 0x2665, prA),
  (0x2666, 0x2666, prN),
  (0x2667, 0x266A, prA),
  (0x266B, 0x266B, prN),
  (0x266C, 0x266D, prA),
  (0x266E, 0x266E, prN),
  (0x266F, 0x266F, prA),
  (0x2670, 0x267E, prN),
  (0x267F, 0x267F, prW),
  (0x2680, 0x2692, prN),
  (0x2693, 0x2693, prW),
  (0x2694, 0x269D, prN),
  (0x269E, 0x269F, prA),
  (0x26A0, 0x26A0, prN),
  (0x26A1, 0x26A1, prW),
  (0x26A2, 0x26A9, prN),
  (0x26AA, 0x26AB, prW),
  (0x26AC, 0x26BC, prN),
  (0x26BD, 0x26BE, prW),
  (0x26BF, 0x26BF, prA),
  (0x26C0, 0x26C3, prN),
  (0x26C4, 0x26C5, prW),
  (0x26C6, 0x26CD, prA),
  (0x26CE, 0x26CE, prW),
  (0x26CF, 0x26D3, prA),
  (0x26D4, 0x26D4, prW),
  (0x26D5, 0x26E1, prA),
  (0x26E2, 0x26E2, prN),
  (0x26E3, 0x26E3, prA),
  (0x26E4, 0x26E7, prN),
  (0x26E8, 0x26E9, prA),
  (0x26EA, 0x26EA, prW),
  (0x26EB, 0x26F1, prA),
  (0x26F2, 0x26F3, prW),
  (0x26F4, 0x26F4, prA),
  (0x26F5, 0x26F5, prW),
  (0x26F6, 0x26F9, prA),
  (0x26FA, 0x26FA, prW),
  (0x26FB, 0x26FC, prA),
  (0x26FD, 0x26FD, prW),
  (0x26FE, 0x26FF, prA),
  (0x2700, 0x2704, prN),
  (0x2705, 0x2705, prW),
  (0x2706, 0x2709, prN),
  (0x270A, 0x270B, prW),
  (0x270C, 0x2727, prN),
  (0x2728, 0x2728, prW),
  (0x2729, 0x273C, prN),
  (0x273D, 0x273D, prA),
  (0x273E, 0x274B, prN),
  (0x274C, 0x274C, prW),
  (0x274D, 0x274D, prN)]

/-- rows 1216..1279 of `eastAsianWidth` -/
def eastAsianWidth_19 : List (Nat × Nat × Nat) := [
  (0x274E, 0x274E, prW),
  (0x274F, 0x2752, prN),
  (0x2753, 0x2755, prW),
  (0x2756, 0x2756, prN),
  (0x2757, 0x2757, prW),
  (0x2758, 0x2767, prN),
  (0x2768, 0x2768, prN),
  (0x2769, 0x2769, prN),
  (0x276A, 0x276A, prN),
  (0x276B, 0x276B, prN),
  (0x276C, 0x276C, prN),
  (0x276D, 0x276D, prN),
  (0x276E, 0x276E, prN),
  (0x276F, 0x276F, prN),
  (0x2770, 0x2770, prN),
  (0x2771, 0x2771, prN),
  (0x2772, 0x2772, prN),
  (0x2773, 0x2773, prN),
  (0x2774, 0x2774, prN),
  (0x2775, 0x2775, prN),
  (0x2776, 0x277F, prA),
  (0x2780, 0x2793, prN),
  (0x2794, 0x2794, prN),
  (0x2795, 0x2797, prW),
  (0x2798, 0x27AF, prN),
  (0x27B0, 0x27B0, prW),
  (0x27B1, 0x27BE, prN),
  (0x27BF, 0x27BF, prW),
  (0x27C0, 0x27C4, prN),
  (0x27C5, 0x27C5, prN),
  (0x27C6, 0x27C6, prN),
  (0x27C7, 0x27E5, prN),
  (0x27E6, 0x27E6, prNa),
  (0x27E7, 0x27E7, prNa),
  (0x27E8, 0x27E8, prNa),
  (0x27E9, 0x27E9, prNa),
  (0x27EA, 0x27EA, prNa),
  (0x27EB, 0x27EB, prNa),
  (0x27EC, 0x27EC, prNa),
  (0x27ED, 0x27ED, prNa),
  (0x27EE, 0x27EE, prN),
  (0x27EF, 0x27EF, prN),
  (0x27F0, 0x27FF, prN),
  (0x2800, 0x28FF, prN),
  (0x2900, 0x297F, prN),
  (0x2980, 0x2982, prN),
  (0x2983, 0x2983, prN),
  (0x2984, 0x2984, prN),
  (0x2985, 0x2985, prNa),
  (0x2986, 0x2986, prNa),
  (0x2987, 0x2987, prN),
  (0x2988, 0x2988, prN),
  (0x2989, 0x2989, prN),
  (0x298A, 0x298A, prN),
  (0x298B, 0x298B, prN),
  (0x298C, 0x298C, prN),
  (0x298D, 0x298D, prN),
  (0x298E, 0x298E, prN),
  (0x298F, 0x298F, prN),
  (0x2990, 0x2990, prN),
  (0x2991, 0x2991, prN),
  (0x2992, 0x2992, prN),
  (0x2993, 0x2993, prN),
  (0x2994, 0x2994, prN)]

/-- rows 1280..1343 of `eastAsianWidth` -/
def eastAsianWidth_20 : List (Nat × Nat × Nat) := [
  (0x2995, 0x2995, prN),
  (0x2996, 0x2996, prN),
  (0x2997, 0x2997, prN),
  (0x2998, 0x2998, prN),
  (0x2999, 0x29D7, prN),
  (0x29D8, 0x29D8, prN),
  (0x29D9, 0x29D9, prN),
  (0x29DA, 0x29DA, prN),
  (0x29DB, 0x29DB, prN),
  (0x29DC, 0x29FB, prN),
  (0x29FC, 0x29FC, prN),
  (0x29FD, 0x29FD, prN),
  (0x29FE, 0x29FF, prN),
  (0x2A00, 0x2AFF, prN),
  (0x2B00, 0x2B1A, prN),
  (0x2B1B, 0x2B1C, prW),
  (0x2B1D, 0x2B2F, prN),
  (0x2B30, 0x2B44, prN),
  (0x2B45, 0x2B46, prN),
  (0x2B47, 0x2B4C, prN),
  (0x2B4D, 0x2B4F, prN),
  (0x2B50, 0x2B50, prW),
  (0x2B51, 0x2B54, prN),
  (0x2B55, 0x2B55, prW),
  (0x2B56, 0x2B59, prA),
  (0x2B5A, 0x2B73, prN),
  (0x2B76, 0x2B95, prN),
  (0x2B97, 0x2BFF, prN),
  (0x2C00, 0x2C5F, prN),
  (0x2C60, 0x2C7B, prN),
  (0x2C7C, 0x2C7D, prN),
  (0x2C7E, 0x2C7F, prN),
  (0x2C80, 0x2CE4, prN),
  (0x2CE5, 0x2CEA, prN),
  (0x2CEB, 0x2CEE, prN),
  (0x2CEF, 0x2CF1, prN),
  (0x2CF2, 0x2CF3, prN),
  (0x2CF9, 0x2CFC, prN),
  (0x2CFD, 0x2CFD, prN),
  (0x2CFE, 0x2CFF, prN),
  (0x2D00, 0x2D25, prN),
  (0x2D27, 0x2D27, prN),
  (0x2D2D, 0x2D2D, prN),
  (0x2D30, 0x2D67, prN),
  (0x2D6F, 0x2D6F, prN),
  (0x2D70, 0x2D70, prN),
  (0x2D7F, 0x2D7F, prN),
  (0x2D80, 0x2D96, prN),
  (0x2DA0, 0x2DA6, prN),
  (0x2DA8, 0x2DAE, prN),
  (0x2DB0, 0x2DB6, prN),
  (0x2DB8, 0x2DBE, prN),
  (0x2DC0, 0x2DC6, prN),
  (0x2DC8, 0x2DCE, prN),
  (0x2DD0, 0x2DD6, prN),
  (0x2DD8, 0x2DDE, prN),
  (0x2DE0, 0x2DFF, prN),
  (0x2E00, 0x2E01, prN),
  (0x2E02, 0x2E02, prN),
  (0x2E03, 0x2E03, prN),
  (0x2E04, 0x2E04, prN),
  (0x2E05, 0x2E05, prN),
  (0x2E06, 0x2E08, prN),
  (0x2E09, 0x2E09, prN)]

/-- rows 1344..1407 of `eastAsianWidth` -/
def eastAsianWidth_21 : List (Nat × Nat × Nat) := [
  (0x2E0A, 0x2E0A, prN),
  (0x2E0B, 0x2E0B, prN),
  (0x2E0C, 0x2E0C, prN),
  (0x2E0D, 0x2E0D, prN),
  (0x2E0E, 0x2E16, prN),
  (0x2E17, 0x2E17, prN),
  (0x2E18, 0x2E19, prN),
  (0x2E1A, 0x2E1A, prN),
  (0x2E1B, 0x2E1B, prN),
  (0x2E1C, 0x2E1C, prN),
  (0x2E1D, 0x2E1D, prN),
  (0x2E1E, 0x2E1F, prN),
  (0x2E20, 0x2E20, prN),
  (0x2E21, 0x2E21, prN),
  (0x2E22, 0x2E22, prN),
  (0x2E23, 0x2E23, prN),
  (0x2E24, 0x2E24, prN),
  (0x2E25, 0x2E25, prN),
  (0x2E26, 0x2E26, prN),
  (0x2E27, 0x2E27, prN),
  (0x2E28, 0x2E28, prN),
  (0x2E29, 0x2E29, prN),
  (0x2E2A, 0x2E2E, prN),
  (0x2E2F, 0x2E2F, prN),
  (0x2E30, 0x2E39, prN),
  (0x2E3A, 0x2E3B, prN),
  (0x2E3C, 0x2E3F, prN),
  (0x2E40, 0x2E40, prN),
  (0x2E41, 0x2E41, prN),
  (0x2E42, 0x2E42, prN),
  (0x2E43, 0x2E4F, prN),
  (0x2E50, 0x2E51, prN),
  (0x2E52, 0x2E54, prN),
  (0x2E55, 0x2E55, prN),
  (0x2E56, 0x2E56, prN),
  (0x2E57, 0x2E57, prN),
  (0x2E58, 0x2E58, prN),
  (0x2E59, 0x2E59, prN),
  (0x2E5A, 0x2E5A, prN),
  (0x2E5B, 0x2E5B, prN),
  (0x2E5C, 0x2E5C, prN),
  (0x2E5D, 0x2E5D, prN),
  (0x2E80, 0x2E99, prW),
  (0x2E9B, 0x2EF3, prW),
  (0x2F00, 0x2FD5, prW),
  (0x2FF0, 0x2FFB, prW),
  (0x3000, 0x3000, prF),
  (0x3001, 0x3003, prW),
  (0x3004, 0x3004, prW),
  (0x3005, 0x3005, prW),
  (0x3006, 0x3006, prW),
  (0x3007, 0x3007, prW),
  (0x3008, 0x3008, prW),
  (0x3009, 0x3009, prW),
  (0x300A, 0x300A, prW),
  (0x300B, 0x300B, prW),
  (0x300C, 0x300C, prW),
  (0x300D, 0x300D, prW),
  (0x300E, 0x300E, prW),
  (0x300F, 0x300F, prW),
  (0x3010, 0x3010, prW),
  (0x3011, 0x3011, prW),
  (0x3012, 0x3013, prW),
  (0x3014, 0x3014, prW)]

/-- rows 1408..1471 of `eastAsianWidth` -/
def eastAsianWidth_22 : List (Nat × Nat × Nat) := [
  (0x3015, 0x3015, prW),
  (0x3016, 0x3016, prW),
  (0x3017, 0x3017, prW),
  (0x3018, 0x3018, prW),
  (0x3019, 0x3019, prW),
  (0x301A, 0x301A, prW),
  (0x301B, 0x301B, prW),
  (0x301C, 0x301C, prW),
  (0x301D, 0x301D, prW),
  (0x301E, 0x301F, prW),
  (0x3020, 0x3020, prW),
  (0x3021, 0x3029, prW),
  (0x302A, 0x302D, prW),
  (0x302E, 0x302F, prW),
  (0x3030, 0x3030, prW),
  (0x3031, 0x3035, prW),
  (0x3036, 0x3037, prW),
  (0x3038, 0x303A, prW),
  (0x303B, 0x303B, prW),
  (0x303C, 0x303C, prW),
  (0x303D, 0x303D, prW),
  (0x303E, 0x303E, prW),
  (0x303F, 0x303F, prN),
  (0x3041, 0x3096, prW),
  (0x3099, 0x309A, prW),
  (0x309B, 0x309C, prW),
  (0x309D, 0x309E, prW),
  (0x309F, 0x309F, prW),
  (0x30A0, 0x30A0, prW),
  (0x30A1, 0x30FA, prW),
  (0x30FB, 0x30FB, prW),
  (0x30FC, 0x30FE, prW),
  (0x30FF, 0x30FF, prW),
  (0x3105, 0x312F, prW),
  (0x3131, 0x318E, prW),
  (0x3190, 0x3191, prW),
  (0x3192, 0x3195, prW),
  (0x3196, 0x319F, prW),
  (0x31A0, 0x31BF, prW),
  (0x31C0, 0x31E3, prW),
  (0x31F0, 0x31FF, prW),
  (0x3200, 0x321E, prW),
  (0x3220, 0x3229, prW),
  (0x322A, 0x3247, prW),
  (0x3248, 0x324F, prA),
  (0x3250, 0x3250, prW),
  (0x3251, 0x325F, prW),
  (0x3260, 0x327F, prW),
  (0x3280, 0x3289, prW),
  (0x328A, 0x32B0, prW),
  (0x32B1, 0x32BF, prW),
  (0x32C0, 0x32FF, prW),
  (0x3300, 0x33FF, prW),
  (0x3400, 0x4DBF, prW),
  (0x4DC0, 0x4DFF, prN),
  (0x4E00, 0x9FFF, prW),
  (0xA000, 0xA014, prW),
  (0xA015, 0xA015, prW),
  (0xA016, 0xA48C, prW),
  (0xA490, 0xA4C6, prW),
  (0xA4D0, 0xA4F7, prN),
  (0xA4F8, 0xA4FD, prN),
  (0xA4FE, 0xA4FF, prN),
  (0xA500, 0xA60B, prN)]

/-- rows 1472..1535 of `eastAsianWidth` -/
def eastAsianWidth_23 : List (Nat × Nat × Nat) := [
  (0xA60C, 0xA60C, prN),
  (0xA60D, 0xA60F, prN),
  (0xA610, 0xA61F, prN),
  (0xA620, 0xA629, prN),
  (0xA62A, 0xA62B, prN),
  (0xA640, 0xA66D, prN),
  (0xA66E, 0xA66E, prN),
  (0xA66F, 0xA66F, prN),
  (0xA670, 0xA672, prN),
  (0xA673, 0xA673, prN),
  (0xA674, 0xA67D, prN),
  (0xA67E, 0xA67E, prN),
  (0xA67F, 0xA67F, prN),
  (0xA680, 0xA69B, prN),
  (0xA69C, 0xA69D, prN),
  (0xA69E, 0xA69F, prN),
  (0xA6A0, 0xA6E5, prN),
  (0xA6E6, 0xA6EF, prN),
  (0xA6F0, 0xA6F1, prN),
  (0xA6F2, 0xA6F7, prN),
  (0xA700, 0xA716, prN),
  (0xA717, 0xA71F, prN),
  (0xA720, 0xA721, prN),
  (0xA722, 0xA76F, prN),
  (0xA770, 0xA770, prN),
  (0xA771, 0xA787, prN),
  (0xA788, 0xA788, prN),
  (0xA789, 0xA78A, prN),
  (0xA78B, 0xA78E, prN),
  (0xA78F, 0xA78F, prN),
  (0xA790, 0xA7CA, prN),
  (0xA7D0, 0xA7D1, prN),
  (0xA7D3, 0xA7D3, prN),
  (0xA7D5, 0xA7D9, prN),
  (0xA7F2, 0xA7F4, prN),
  (0xA7F5, 0xA7F6, prN),
  (0xA7F7, 0xA7F7, prN),
  (0xA7F8, 0xA7F9, prN),
  (0xA7FA, 0xA7FA, prN),
  (0xA7FB, 0xA7FF, prN),
  (0xA800, 0xA801, prN),
  (0xA802, 0xA802, prN),
  (0xA803, 0xA805, prN),
  (0xA806, 0xA806, prN),
  (0xA807, 0xA80A, prN),
  (0xA80B, 0xA80B, prN),
  (0xA80C, 0xA822, prN),
  (0xA823, 0xA824, prN),
  (0xA825, 0xA826, prN),
  (0xA827, 0xA827, prN),
  (0xA828, 0xA82B, prN),
  (0xA82C, 0xA82C, prN),
  (0xA830, 0xA835, prN),
  (0xA836, 0xA837, prN),
  (0xA838, 0xA838, prN),
  (0xA839, 0xA839, prN),
  (0xA840, 0xA873, prN),
  (0xA874, 0xA877, prN),
  (0xA880, 0xA881, prN),
  (0xA882, 0xA8B3, prN),
  (0xA8B4, 0xA8C3, prN),
  (0xA8C4, 0xA8C5, prN),
  (0xA8CE, 0xA8CF, prN),
  (0xA8D0, 0xA8D9, prN)]

/-- rows 1536..1599 of `eastAsianWidth` -/
def eastAsianWidth_24 : List (Nat × Nat × Nat) := [
  (0xA8E0, 0xA8F1, prN),
  (0xA8F2, 0xA8F7, prN),
  (0xA8F8, 0xA8FA, prN),
  (0xA8FB, 0xA8FB, prN),
  (0xA8FC, 0xA8FC, prN),
  (0xA8FD, 0xA8FE, prN),
  (0xA8FF, 0xA8FF, prN),
  (0xA900, 0xA909, prN),
  (0xA90A, 0xA925, prN),
  (0xA926, 0xA92D, prN),
  (0xA92E, 0xA92F, prN),
  (0xA930, 0xA946, prN),
  (0xA947, 0xA951, prN),
  (0xA952, 0xA953, prN),
  (0xA95F, 0xA95F, prN),
  (0xA960, 0xA97C, prW),
  (0xA980, 0xA982, prN),
  (0xA983, 0xA983, prN),
  (0xA984, 0xA9B2, prN),
  (0xA9B3, 0xA9B3, prN),
  (0xA9B4, 0xA9B5, prN),
  (0xA9B6, 0xA9B9, prN),
  (0xA9BA, 0xA9BB, prN),
  (0xA9BC, 0xA9BD, prN),
  (0xA9BE, 0xA9C0, prN),
  (0xA9C1, 0xA9CD, prN),
  (0xA9CF, 0xA9CF, prN),
  (0xA9D0, 0xA9D9, prN),
  (0xA9DE, 0xA9DF, prN),
  (0xA9E0, 0xA9E4, prN),
  (0xA9E5, 0xA9E5, prN),
  (0xA9E6, 0xA9E6, prN),
  (0xA9E7, 0xA9EF, prN),
  (0xA9F0, 0xA9F9, prN),
  (0xA9FA, 0xA9FE, prN),
  (0xAA00, 0xAA28, prN),
  (0xAA29, 0xAA2E, prN),
  (0xAA2F, 0xAA30, prN),
  (0xAA31, 0xAA32, prN),
  (0xAA33, 0xAA34, prN),
  (0xAA35, 0xAA36, prN),
  (0xAA40, 0xAA42, prN),
  (0xAA43, 0xAA43, prN),
  (0xAA44, 0xAA4B, prN),
  (0xAA4C, 0xAA4C, prN),
  (0xAA4D, 0xAA4D, prN),
  (0xAA50, 0xAA59, prN),
  (0xAA5C, 0xAA5F, prN),
  (0xAA60, 0xAA6F, prN),
  (0xAA70, 0xAA70, prN),
  (0xAA71, 0xAA76, prN),
  (0xAA77, 0xAA79, prN),
  (0xAA7A, 0xAA7A, prN),
  (0xAA7B, 0xAA7B, prN),
  (0xAA7C, 0xAA7C, prN),
  (0xAA7D, 0xAA7D, prN),
  (0xAA7E, 0xAA7F, prN),
  (0xAA80, 0xAAAF, prN),
  (0xAAB0, 0xAAB0, prN),
  (0xAAB1, 0xAAB1, prN),
  (0xAAB2, 0xAAB4, prN),
  (0xAAB5, 0xAAB6, prN),
  (0xAAB7, 0xAAB8, prN),
  (0xAAB9, 0xAABD, prN)]

/-- rows 1600..1663 of `eastAsianWidth` -/
def eastAsianWidth_25 : List (Nat × Nat × Nat) := [
  (0xAABE, 0xAABF, prN),
  (0xAAC0, 0xAAC0, prN),
  (0xAAC1, 0xAAC1, prN),
  (0xAAC2, 0xAAC2, prN),
  (0xAADB, 0xAADC, prN),
  (0xAADD, 0xAADD, prN),
  (0xAADE, 0xAADF, prN),
  (0xAAE0, 0xAAEA, prN),
  (0xAAEB, 0xAAEB, prN),
  (0xAAEC, 0xAAED, prN),
  (0xAAEE, 0xAAEF, prN),
  (0xAAF0, 0xAAF1, prN),
  (0xAAF2, 0xAAF2, prN),
  (0xAAF3, 0xAAF4, prN),
  (0xAAF5, 0xAAF5, prN),
  (0xAAF6, 0xAAF6, prN),
  (0xAB01, 0xAB06, prN),
  (0xAB09, 0xAB0E, prN),
  (0xAB11, 0xAB16, prN),
  (0xAB20, 0xAB26, prN),
  (0xAB28, 0xAB2E, prN),
  (0xAB30, 0xAB5A, prN),
  (0xAB5B, 0xAB5B, prN),
  (0xAB5C, 0xAB5F, prN),
  (0xAB60, 0xAB68, prN),
  (0xAB69, 0xAB69, prN),
  (0xAB6A, 0xAB6B, prN),
  (0xAB70, 0xABBF, prN),
  (0xABC0, 0xABE2, prN),
  (0xABE3, 0xABE4, prN),
  (0xABE5, 0xABE5, prN),
  (0xABE6, 0xABE7, prN),
  (0xABE8, 0xABE8, prN),
  (0xABE9, 0xABEA, prN),
  (0xABEB, 0xABEB, prN),
  (0xABEC, 0xABEC, prN),
  (0xABED, 0xABED, prN),
  (0xABF0, 0xABF9, prN),
  (0xAC00, 0xD7A3, prW),
  (0xD7B0, 0xD7C6, prN),
  (0xD7CB, 0xD7FB, prN),
  (0xD800, 0xDB7F, prN),
  (0xDB80, 0xDBFF, prN),
  (0xDC00, 0xDFFF, prN),
  (0xE000, 0xF8FF, prA),
  (0xF900, 0xFA6D, prW),
  (0xFA6E, 0xFA6F, prW),
  (0xFA70, 0xFAD9, prW),
  (0xFADA, 0xFAFF, prW),
  (0xFB00, 0xFB06, prN),
  (0xFB13, 0xFB17, prN),
  (0xFB1D, 0xFB1D, prN),
  (0xFB1E, 0xFB1E, prN),
  (0xFB1F, 0xFB28, prN),
  (0xFB29, 0xFB29, prN),
  (0xFB2A, 0xFB36, prN),
  (0xFB38, 0xFB3C, prN),
  (0xFB3E, 0xFB3E, prN),
  (0xFB40, 0xFB41, prN),
  (0xFB43, 0xFB44, prN),
  (0xFB46, 0xFB4F, prN),
  (0xFB50, 0xFBB1, prN),
  (0xFBB2, 0xFBC2, prN),
  (0xFBD3, 0xFD3D, prN)]

/-- rows 1664..1727 of `eastAsianWidth` -/
def eastAsianWidth_26 : List (Nat × Nat × Nat) := [
  (0xFD3E, 0xFD3E, prN),
  (0xFD3F, 0xFD3F, prN),
  (0xFD40, 0xFD4F, prN),
  (0xFD50, 0xFD8F, prN),
  (0xFD92, 0xFDC7, prN),
  (0xFDCF, 0xFDCF, prN),
  (0xFDF0, 0xFDFB, prN),
  (0xFDFC, 0xFDFC, prN),
  (0xFDFD, 0xFDFF, prN),
  (0xFE00, 0xFE0F, prA),
  (0xFE10, 0xFE16, prW),
  (0xFE17, 0xFE17, prW),
  (0xFE18, 0xFE18, prW),
  (0xFE19, 0xFE19, prW),
  (0xFE20, 0xFE2F, prN),
  (0xFE30, 0xFE30, prW),
  (0xFE31, 0xFE32, prW),
  (0xFE33, 0xFE34, prW),
  (0xFE35, 0xFE35, prW),
  (0xFE36, 0xFE36, prW),
  (0xFE37, 0xFE37, prW),
  (0xFE38, 0xFE38, prW),
  (0xFE39, 0xFE39, prW),
  (0xFE3A, 0xFE3A, prW),
  (0xFE3B, 0xFE3B, prW),
  (0xFE3C, 0xFE3C, prW),
  (0xFE3D, 0xFE3D, prW),
  (0xFE3E, 0xFE3E, prW),
  (0xFE3F, 0xFE3F, prW),
  (0xFE40, 0xFE40, prW),
  (0xFE41, 0xFE41, prW),
  (0xFE42, 0xFE42, prW),
  (0xFE43, 0xFE43, prW),
  (0xFE44, 0xFE44, prW),
  (0xFE45, 0xFE46, prW),
  (0xFE47, 0xFE47, prW),
  (0xFE48, 0xFE48, prW),
  (0xFE49, 0xFE4C, prW),
  (0xFE4D, 0xFE4F, prW),
  (0xFE50, 0xFE52, prW),
  (0xFE54, 0xFE57, prW),
  (0xFE58, 0xFE58, prW),
  (0xFE59, 0xFE59, prW),
  (0xFE5A, 0xFE5A, prW),
  (0xFE5B, 0xFE5B, prW),
  (0xFE5C, 0xFE5C, prW),
  (0xFE5D, 0xFE5D, prW),
  (0xFE5E, 0xFE5E, prW),
  (0xFE5F, 0xFE61, prW),
  (0xFE62, 0xFE62, prW),
  (0xFE63, 0xFE63, prW),
  (0xFE64, 0xFE66, prW),
  (0xFE68, 0xFE68, prW),
  (0xFE69, 0xFE69, prW),
  (0xFE6A, 0xFE6B, prW),
  (0xFE70, 0xFE74, prN),
  (0xFE76, 0xFEFC, prN),
  (0xFEFF, 0xFEFF, prN),
  (0xFF01, 0xFF03, prF),
  (0xFF04, 0xFF04, prF),
  (0xFF05, 0xFF07, prF),
  (0xFF08, 0xFF08, prF),
  (0xFF09, 0xFF09, prF),
  (0xFF0A, 0xFF0A, prF)]

/-- rows 1728..1791 of `eastAsianWidth` -/
def eastAsianWidth_27 : List (Nat × Nat × Nat) := [
  (0xFF0B, 0xFF0B, prF),
  (0xFF0C, 0xFF0C, prF),
  (0xFF0D, 0xFF0D, prF),
  (0xFF0E, 0xFF0F, prF),
  (0xFF10, 0xFF19, prF),
  (0xFF1A, 0xFF1B, prF),
  (0xFF1C, 0xFF1E, prF),
  (0xFF1F, 0xFF20, prF),
  (0xFF21, 0xFF3A, prF),
  (0xFF3B, 0xFF3B, prF),
  (0xFF3C, 0xFF3C, prF),
  (0xFF3D, 0xFF3D, prF),
  (0xFF3E, 0xFF3E, prF),
  (0xFF3F, 0xFF3F, prF),
  (0xFF40, 0xFF40, prF),
  (0xFF41, 0xFF5A, prF),
  (0xFF5B, 0xFF5B, prF),
  (0xFF5C, 0xFF5C, prF),
  (0xFF5D, 0xFF5D, prF),
  (0xFF5E, 0xFF5E, prF),
  (0xFF5F, 0xFF5F, prF),
  (0xFF60, 0xFF60, prF),
  (0xFF61, 0xFF61, prH),
  (0xFF62, 0xFF62, prH),
  (0xFF63, 0xFF63, prH),
  (0xFF64, 0xFF65, prH),
  (0xFF66, 0xFF6F, prH),
  (0xFF70, 0xFF70, prH),
  (0xFF71, 0xFF9D, prH),
  (0xFF9E, 0xFF9F, prH),
  (0xFFA0, 0xFFBE, prH),
  (0xFFC2, 0xFFC7, prH),
  (0xFFCA, 0xFFCF, prH),
  (0xFFD2, 0xFFD7, prH),
  (0xFFDA, 0xFFDC, prH),
  (0xFFE0, 0xFFE1, prF),
  (0xFFE2, 0xFFE2, prF),
  (0xFFE3, 0xFFE3, prF),
  (0xFFE4, 0xFFE4, prF),
  (0xFFE5, 0xFFE6, prF),
  (0xFFE8, 0xFFE8, prH),
  (0xFFE9, 0xFFEC, prH),
  (0xFFED, 0xFFEE, prH),
  (0xFFF9, 0xFFFB, prN),
  (0xFFFC, 0xFFFC, prN),
  (0xFFFD, 0xFFFD, prA),
  (0x10000, 0x1000B, prN),
  (0x1000D, 0x10026, prN),
  (0x10028, 0x1003A, prN),
  (0x1003C, 0x1003D, prN),
  (0x1003F, 0x1004D, prN),
  (0x10050, 0x1005D, prN),
  (0x10080, 0x100FA, prN),
  (0x10100, 0x10102, prN),
  (0x10107, 0x10133, prN),
  (0x10137, 0x1013F, prN),
  (0x10140, 0x10174, prN),
  (0x10175, 0x10178, prN),
  (0x10179, 0x10189, prN),
  (0x1018A, 0x1018B, prN),
  (0x1018C, 0x1018E, prN),
  (0x10190, 0x1019C, prN),
  (0x101A0, 0x101A0, prN),
  (0x101D0, 0x101FC, prN)]

/-- rows 1792..1855 of `eastAsianWidth` -/
def eastAsianWidth_28 : List (Nat × Nat × Nat) := [
  (0x101FD, 0x101FD, prN),
  (0x10280, 0x1029C, prN),
  (0x102A0, 0x102D0, prN),
  (0x102E0, 0x102E0, prN),
  (0x102E1, 0x102FB, prN),
  (0x10300, 0x1031F, prN),
  (0x10320, 0x10323, prN),
  (0x1032D, 0x1032F, prN),
  (0x10330, 0x10340, prN),
  (0x10341, 0x10341, prN),
  (0x10342, 0x10349, prN),
  (0x1034A, 0x1034A, prN),
  (0x10350, 0x10375, prN),
  (0x10376, 0x1037A, prN),
  (0x10380, 0x1039D, prN),
  (0x1039F, 0x1039F, prN),
  (0x103A0, 0x103C3, prN),
  (0x103C8, 0x103CF, prN),
  (0x103D0, 0x103D0, prN),
  (0x103D1, 0x103D5, prN),
  (0x10400, 0x1044F, prN),
  (0x10450, 0x1047F, prN),
  (0x10480, 0x1049D, prN),
  (0x104A0, 0x104A9, prN),
  (0x104B0, 0x104D3, prN),
  (0x104D8, 0x104FB, prN),
  (0x10500, 0x10527, prN),
  (0x10530, 0x10563, prN),
  (0x1056F, 0x1056F, prN),
  (0x10570, 0x1057A, prN),
  (0x1057C, 0x1058A, prN),
  (0x1058C, 0x10592, prN),
  (0x10594, 0x10595, prN),
  (0x10597, 0x105A1, prN),
  (0x105A3, 0x105B1, prN),
  (0x105B3, 0x105B9, prN),
  (0x105BB, 0x105BC, prN),
  (0x10600, 0x10736, prN),
  (0x10740, 0x10755, prN),
  (0x10760, 0x10767, prN),
  (0x10780, 0x10785, prN),
  (0x10787, 0x107B0, prN),
  (0x107B2, 0x107BA, prN),
  (0x10800, 0x10805, prN),
  (0x10808, 0x10808, prN),
  (0x1080A, 0x10835, prN),
  (0x10837, 0x10838, prN),
  (0x1083C, 0x1083C, prN),
  (0x1083F, 0x1083F, prN),
  (0x10840, 0x10855, prN),
  (0x10857, 0x10857, prN),
  (0x10858, 0x1085F, prN),
  (0x10860, 0x10876, prN),
  (0x10877, 0x10878, prN),
  (0x10879, 0x1087F, prN),
  (0x10880, 0x1089E, prN),
  (0x108A7, 0x108AF, prN),
  (0x108E0, 0x108F2, prN),
  (0x108F4, 0x108F5, prN),
  (0x108FB, 0x108FF, prN),
  (0x10900, 0x10915, prN),
  (0x10916, 0x1091B, prN),
  (0x1091F, 0x1091F, prN),
  (0x10920, 0x10939, prN)]

/-- rows 1856..1919 of `eastAsianWidth` -/
def eastAsianWidth_29 : List (Nat × Nat × Nat) := [
  (0x1093F, 0x1093F, prN),
  (0x10980, 0x1099F, prN),
  (0x109A0, 0x109B7, prN),
  (0x109BC, 0x109BD, prN),
  (0x109BE, 0x109BF, prN),
  (0x109C0, 0x109CF, prN),
  (0x109D2, 0x109FF, prN),
  (0x10A00, 0x10A00, prN),
  (0x10A01, 0x10A03, prN),
  (0x10A05, 0x10A06, prN),
  (0x10A0C, 0x10A0F, prN),
  (0x10A10, 0x10A13, prN),
  (0x10A15, 0x10A17, prN),
  (0x10A19, 0x10A35, prN),
  (0x10A38, 0x10A3A, prN),
  (0x10A3F, 0x10A3F, prN),
  (0x10A40, 0x10A48, prN),
  (0x10A50, 0x10A58, prN),
  (0x10A60, 0x10A7C, prN),
  (0x10A7D, 0x10A7E, prN),
  (0x10A7F, 0x10A7F, prN),
  (0x10A80, 0x10A9C, prN),
  (0x10A9D, 0x10A9F, prN),
  (0x10AC0, 0x10AC7, prN),
  (0x10AC8, 0x10AC8, prN),
  (0x10AC9, 0x10AE4, prN),
  (0x10AE5, 0x10AE6, prN),
  (0x10AEB, 0x10AEF, prN),
  (0x10AF0, 0x10AF6, prN),
  (0x10B00, 0x10B35, prN),
  (0x10B39, 0x10B3F, prN),
  (0x10B40, 0x10B55, prN),
  (0x10B58, 0x10B5F, prN),
  (0x10B60, 0x10B72, prN),
  (0x10B78, 0x10B7F, prN),
  (0x10B80, 0x10B91, prN),
  (0x10B99, 0x10B9C, prN),
  (0x10BA9, 0x10BAF, prN),
  (0x10C00, 0x10C48, prN),
  (0x10C80, 0x10CB2, prN),
  (0x10CC0, 0x10CF2, prN),
  (0x10CFA, 0x10CFF, prN),
  (0x10D00, 0x10D23, prN),
  (0x10D24, 0x10D27, prN),
  (0x10D30, 0x10D39, prN),
  (0x10E60, 0x10E7E, prN),
  (0x10E80, 0x10EA9, prN),
  (0x10EAB, 0x10EAC, prN),
  (0x10EAD, 0x10EAD, prN),
  (0x10EB0, 0x10EB1, prN),
  (0x10F00, 0x10F1C, prN),
  (0x10F1D, 0x10F26, prN),
  (0x10F27, 0x10F27, prN),
  (0x10F30, 0x10F45, prN),
  (0x10F46, 0x10F50, prN),
  (0x10F51, 0x10F54, prN),
  (0x10F55, 0x10F59, prN),
  (0x10F70, 0x10F81, prN),
  (0x10F82, 0x10F85, prN),
  (0x10F86, 0x10F89, prN),
  (0x10FB0, 0x10FC4, prN),
  (0x10FC5, 0x10FCB, prN),
  (0x10FE0, 0x10FF6, prN),
  (0x11000, 0x11000, prN)]

/-- rows 1920..1983 of `eastAsianWidth` -/
def eastAsianWidth_30 : List (Nat × Nat × Nat) := [
  (0x11001, 0x11001, prN),
  (0x11002, 0x11002, prN),
  (0x11003, 0x11037, prN),
  (0x11038, 0x11046, prN),
  (0x11047, 0x1104D, prN),
  (0x11052, 0x11065, prN),
  (0x11066, 0x1106F, prN),
  (0x11070, 0x11070, prN),
  (0x11071, 0x11072, prN),
  (0x11073, 0x11074, prN),
  (0x11075, 0x11075, prN),
  (0x1107F, 0x1107F, prN),
  (0x11080, 0x11081, prN),
  (0x11082, 0x11082, prN),
  (0x11083, 0x110AF, prN),
  (0x110B0, 0x110B2, prN),
  (0x110B3, 0x110B6, prN),
  (0x110B7, 0x110B8, prN),
  (0x110B9, 0x110BA, prN),
  (0x110BB, 0x110BC, prN),
  (0x110BD, 0x110BD, prN),
  (0x110BE, 0x110C1, prN),
  (0x110C2, 0x110C2, prN),
  (0x110CD, 0x110CD, prN),
  (0x110D0, 0x110E8, prN),
  (0x110F0, 0x110F9, prN),
  (0x11100, 0x11102, prN),
  (0x11103, 0x11126, prN),
  (0x11127, 0x1112B, prN),
  (0x1112C, 0x1112C, prN),
  (0x1112D, 0x11134, prN),
  (0x11136, 0x1113F, prN),
  (0x11140, 0x11143, prN),
  (0x11144, 0x11144, prN),
  (0x11145, 0x11146, prN),
  (0x11147, 0x11147, prN),
  (0x11150, 0x11172, prN),
  (0x11173, 0x11173, prN),
  (0x11174, 0x11175, prN),
  (0x11176, 0x11176, prN),
  (0x11180, 0x11181, prN),
  (0x11182, 0x11182, prN),
  (0x11183, 0x111B2, prN),
  (0x111B3, 0x111B5, prN),
  (0x111B6, 0x111BE, prN),
  (0x111BF, 0x111C0, prN),
  (0x111C1, 0x111C4, prN),
  (0x111C5, 0x111C8, prN),
  (0x111C9, 0x111CC, prN),
  (0x111CD, 0x111CD, prN),
  (0x111CE, 0x111CE, prN),
  (0x111CF, 0x111CF, prN),
  (0x111D0, 0x111D9, prN),
  (0x111DA, 0x111DA, prN),
  (0x111DB, 0x111DB, prN),
  (0x111DC, 0x111DC, prN),
  (0x111DD, 0x111DF, prN),
  (0x111E1, 0x111F4, prN),
  (0x11200, 0x11211, prN),
  (0x11213, 0x1122B, prN),
  (0x1122C, 0x1122E, prN),
  (0x1122F, 0x11231, prN),
  (0x11232, 0x11233, prN),
  (0x11234, 0x11234, prN)]

/-- rows 1984..2047 of `eastAsianWidth` -/
def eastAsianWidth_31 : List (Nat × Nat × Nat) := [
  (0x11235, 0x11235, prN),
  (0x11236, 0x11237, prN),
  (0x11238, 0x1123D, prN),
  (0x1123E, 0x1123E, prN),
  (0x11280, 0x11286, prN),
  (0x11288, 0x11288, prN),
  (0x1128A, 0x1128D, prN),
  (0x1128F, 0x1129D, prN),
  (0x1129F, 0x112A8, prN),
  (0x112A9, 0x112A9, prN),
  (0x112B0, 0x112DE, prN),
  (0x112DF, 0x112DF, prN),
  (0x112E0, 0x112E2, prN),
  (0x112E3, 0x112EA, prN),
  (0x112F0, 0x112F9, prN),
  (0x11300, 0x11301, prN),
  (0x11302, 0x11303, prN),
  (0x11305, 0x1130C, prN),
  (0x1130F, 0x11310, prN),
  (0x11313, 0x11328, prN),
  (0x1132A, 0x11330, prN),
  (0x11332, 0x11333, prN),
  (0x11335, 0x11339, prN),
  (0x1133B, 0x1133C, prN),
  (0x1133D, 0x1133D, prN),
  (0x1133E, 0x1133F, prN),
  (0x11340, 0x11340, prN),
  (0x11341, 0x11344, prN),
  (0x11347, 0x11348, prN),
  (0x1134B, 0x1134D, prN),
  (0x11350, 0x11350, prN),
  (0x11357, 0x11357, prN),
  (0x1135D, 0x11361, prN),
  (0x11362, 0x11363, prN),
  (0x11366, 0x1136C, prN),
  (0x11370, 0x11374, prN),
  (0x11400, 0x11434, prN),
  (0x11435, 0x11437, prN),
  (0x11438, 0x1143F, prN),
  (0x11440, 0x11441, prN),
  (0x11442, 0x11444, prN),
  (0x11445, 0x11445, prN),
  (0x11446, 0x11446, prN),
  (0x11447, 0x1144A, prN),
  (0x1144B, 0x1144F, prN),
  (0x11450, 0x11459, prN),
  (0x1145A, 0x1145B, prN),
  (0x1145D, 0x1145D, prN),
  (0x1145E, 0x1145E, prN),
  (0x1145F, 0x11461, prN),
  (0x11480, 0x114AF, prN),
  (0x114B0, 0x114B2, prN),
  (0x114B3, 0x114B8, prN),
  (0x114B9, 0x114B9, prN),
  (0x114BA, 0x114BA, prN),
  (0x114BB, 0x114BE, prN),
  (0x114BF, 0x114C0, prN),
  (0x114C1, 0x114C1, prN),
  (0x114C2, 0x114C3, prN),
  (0x114C4, 0x114C5, prN),
  (0x114C6, 0x114C6, prN),
  (0x114C7, 0x114C7, prN),
  (0x114D0, 0x114D9, prN),
  (0x11580, 0x115AE, prN)]

/-- rows 2048..2111 of `eastAsianWidth` -/
def eastAsianWidth_32 : List (Nat × Nat × Nat) := [
  (0x115AF, 0x115B1, prN),
  (0x115B2, 0x115B5, prN),
  (0x115B8, 0x115BB, prN),
  (0x115BC, 0x115BD, prN),
  (0x115BE, 0x115BE, prN),
  (0x115BF, 0x115C0, prN),
  (0x115C1, 0x115D7, prN),
  (0x115D8, 0x115DB, prN),
  (0x115DC, 0x115DD, prN),
  (0x11600, 0x1162F, prN),
  (0x11630, 0x11632, prN),
  (0x11633, 0x1163A, prN),
  (0x1163B, 0x1163C, prN),
  (0x1163D, 0x1163D, prN),
  (0x1163E, 0x1163E, prN),
  (0x1163F, 0x11640, prN),
  (0x11641, 0x11643, prN),
  (0x11644, 0x11644, prN),
  (0x11650, 0x11659, prN),
  (0x11660, 0x1166C, prN),
  (0x11680, 0x116AA, prN),
  (0x116AB, 0x116AB, prN),
  (0x116AC, 0x116AC, prN),
  (0x116AD, 0x116AD, prN),
  (0x116AE, 0x116AF, prN),
  (0x116B0, 0x116B5, prN),
  (0x116B6, 0x116B6, prN),
  (0x116B7, 0x116B7, prN),
  (0x116B8, 0x116B8, prN),
  (0x116B9, 0x116B9, prN),
  (0x116C0, 0x116C9, prN),
  (0x11700, 0x1171A, prN),
  (0x1171D, 0x1171F, prN),
  (0x11720, 0x11721, prN),
  (0x11722, 0x11725, prN),
  (0x11726, 0x11726, prN),
  (0x11727, 0x1172B, prN),
  (0x11730, 0x11739, prN),
  (0x1173A, 0x1173B, prN),
  (0x1173C, 0x1173E, prN),
  (0x1173F, 0x1173F, prN),
  (0x11740, 0x11746, prN),
  (0x11800, 0x1182B, prN),
  (0x1182C, 0x1182E, prN),
  (0x1182F, 0x11837, prN),
  (0x11838, 0x11838, prN),
  (0x11839, 0x1183A, prN),
  (0x1183B, 0x1183B, prN),
  (0x118A0, 0x118DF, prN),
  (0x118E0, 0x118E9, prN),
  (0x118EA, 0x118F2, prN),
  (0x118FF, 0x118FF, prN),
  (0x11900, 0x11906, prN),
  (0x11909, 0x11909, prN),
  (0x1190C, 0x11913, prN),
  (0x11915, 0x11916, prN),
  (0x11918, 0x1192F, prN),
  (0x11930, 0x11935, prN),
  (0x11937, 0x11938, prN),
  (0x1193B, 0x1193C, prN),
  (0x1193D, 0x1193D, prN),
  (0x1193E, 0x1193E, prN),
  (0x1193F, 0x1193F, prN),
  (0x11940, 0x11940, prN)]

/-- rows 2112..2175 of `eastAsianWidth` -/
def eastAsianWidth_33 : List (Nat × Nat × Nat) := [
  (0x11941, 0x11941, prN),
  (0x11942, 0x11942, prN),
  (0x11943, 0x11943, prN),
  (0x11944, 0x11946, prN),
  (0x11950, 0x11959, prN),
  (0x119A0, 0x119A7, prN),
  (0x119AA, 0x119D0, prN),
  (0x119D1, 0x119D3, prN),
  (0x119D4, 0x119D7, prN),
  (0x119DA, 0x119DB, prN),
  (0x119DC, 0x119DF, prN),
  (0x119E0, 0x119E0, prN),
  (0x119E1, 0x119E1, prN),
  (0x119E2, 0x119E2, prN),
  (0x119E3, 0x119E3, prN),
  (0x119E4, 0x119E4, prN),
  (0x11A00, 0x11A00, prN),
  (0x11A01, 0x11A0A, prN),
  (0x11A0B, 0x11A32, prN),
  (0x11A33, 0x11A38, prN),
  (0x11A39, 0x11A39, prN),
  (0x11A3A, 0x11A3A, prN),
  (0x11A3B, 0x11A3E, prN),
  (0x11A3F, 0x11A46, prN),
  (0x11A47, 0x11A47, prN),
  (0x11A50, 0x11A50, prN),
  (0x11A51, 0x11A56, prN),
  (0x11A57, 0x11A58, prN),
  (0x11A59, 0x11A5B, prN),
  (0x11A5C, 0x11A89, prN),
  (0x11A8A, 0x11A96, prN),
  (0x11A97, 0x11A97, prN),
  (0x11A98, 0x11A99, prN),
  (0x11A9A, 0x11A9C, prN),
  (0x11A9D, 0x11A9D, prN),
  (0x11A9E, 0x11AA2, prN),
  (0x11AB0, 0x11ABF, prN),
  (0x11AC0, 0x11AF8, prN),
  (0x11C00, 0x11C08, prN),
  (0x11C0A, 0x11C2E, prN),
  (0x11C2F, 0x11C2F, prN),
  (0x11C30, 0x11C36, prN),
  (0x11C38, 0x11C3D, prN),
  (0x11C3E, 0x11C3E, prN),
  (0x11C3F, 0x11C3F, prN),
  (0x11C40, 0x11C40, prN),
  (0x11C41, 0x11C45, prN),
  (0x11C50, 0x11C59, prN),
  (0x11C5A, 0x11C6C, prN),
  (0x11C70, 0x11C71, prN),
  (0x11C72, 0x11C8F, prN),
  (0x11C92, 0x11CA7, prN),
  (0x11CA9, 0x11CA9, prN),
  (0x11CAA, 0x11CB0, prN),
  (0x11CB1, 0x11CB1, prN),
  (0x11CB2, 0x11CB3, prN),
  (0x11CB4, 0x11CB4, prN),
  (0x11CB5, 0x11CB6, prN),
  (0x11D00, 0x11D06, prN),
  (0x11D08, 0x11D09, prN),
  (0x11D0B, 0x11D30, prN),
  (0x11D31, 0x11D36, prN),
  (0x11D3A, 0x11D3A, prN),
  (0x11D3C, 0x11D3D, prN)]

/-- rows 2176..2239 of `eastAsianWidth` -/
def eastAsianWidth_34 : List (Nat × Nat × Nat) := [
  (0x11D3F, 0x11D45, prN),
  (0x11D46, 0x11D46, prN),
  (0x11D47, 0x11D47, prN),
  (0x11D50, 0x11D59, prN),
  (0x11D60, 0x11D65, prN),
  (0x11D67, 0x11D68, prN),
  (0x11D6A, 0x11D89, prN),
  (0x11D8A, 0x11D8E, prN),
  (0x11D90, 0x11D91, prN),
  (0x11D93, 0x11D94, prN),
  (0x11D95, 0x11D95, prN),
  (0x11D96, 0x11D96, prN),
  (0x11D97, 0x11D97, prN),
  (0x11D98, 0x11D98, prN),
  (0x11DA0, 0x11DA9, prN),
  (0x11EE0, 0x11EF2, prN),
  (0x11EF3, 0x11EF4, prN),
  (0x11EF5, 0x11EF6, prN),
  (0x11EF7, 0x11EF8, prN),
  (0x11FB0, 0x11FB0, prN),
  (0x11FC0, 0x11FD4, prN),
  (0x11FD5, 0x11FDC, prN),
  (0x11FDD, 0x11FE0, prN),
  (0x11FE1, 0x11FF1, prN),
  (0x11FFF, 0x11FFF, prN),
  (0x12000, 0x12399, prN),
  (0x12400, 0x1246E, prN),
  (0x12470, 0x12474, prN),
  (0x12480, 0x12543, prN),
  (0x12F90, 0x12FF0, prN),
  (0x12FF1, 0x12FF2, prN),
  (0x13000, 0x1342E, prN),
  (0x13430, 0x13438, prN),
  (0x14400, 0x14646, prN),
  (0x16800, 0x16A38, prN),
  (0x16A40, 0x16A5E, prN),
  (0x16A60, 0x16A69, prN),
  (0x16A6E, 0x16A6F, prN),
  (0x16A70, 0x16ABE, prN),
  (0x16AC0, 0x16AC9, prN),
  (0x16AD0, 0x16AED, prN),
  (0x16AF0, 0x16AF4, prN),
  (0x16AF5, 0x16AF5, prN),
  (0x16B00, 0x16B2F, prN),
  (0x16B30, 0x16B36, prN),
  (0x16B37, 0x16B3B, prN),
  (0x16B3C, 0x16B3F, prN),
  (0x16B40, 0x16B43, prN),
  (0x16B44, 0x16B44, prN),
  (0x16B45, 0x16B45, prN),
  (0x16B50, 0x16B59, prN),
  (0x16B5B, 0x16B61, prN),
  (0x16B63, 0x16B77, prN),
  (0x16B7D, 0x16B8F, prN),
  (0x16E40, 0x16E7F, prN),
  (0x16E80, 0x16E96, prN),
  (0x16E97, 0x16E9A, prN),
  (0x16F00, 0x16F4A, prN),
  (0x16F4F, 0x16F4F, prN),
  (0x16F50, 0x16F50, prN),
  (0x16F51, 0x16F87, prN),
  (0x16F8F, 0x16F92, prN),
  (0x16F93, 0x16F9F, prN),
  (0x16FE0, 0x16FE1, prW)]

/-- rows 2240..2303 of `eastAsianWidth` -/
def eastAsianWidth_35 : List (Nat × Nat × Nat) := [
  (0x16FE2, 0x16FE2, prW),
  (0x16FE3, 0x16FE3, prW),
  (0x16FE4, 0x16FE4, prW),
  (0x16FF0, 0x16FF1, prW),
  (0x17000, 0x187F7, prW),
  (0x18800, 0x18AFF, prW),
  (0x18B00, 0x18CD5, prW),
  (0x18D00, 0x18D08, prW),
  (0x1AFF0, 0x1AFF3, prW),
  (0x1AFF5, 0x1AFFB, prW),
  (0x1AFFD, 0x1AFFE, prW),
  (0x1B000, 0x1B0FF, prW),
  (0x1B100, 0x1B122, prW),
  (0x1B150, 0x1B152, prW),
  (0x1B164, 0x1B167, prW),
  (0x1B170, 0x1B2FB, prW),
  (0x1BC00, 0x1BC6A, prN),
  (0x1BC70, 0x1BC7C, prN),
  (0x1BC80, 0x1BC88, prN),
  (0x1BC90, 0x1BC99, prN),
  (0x1BC9C, 0x1BC9C, prN),
  (0x1BC9D, 0x1BC9E, prN),
  (0x1BC9F, 0x1BC9F, prN),
  (0x1BCA0, 0x1BCA3, prN),
  (0x1CF00, 0x1CF2D, prN),
  (0x1CF30, 0x1CF46, prN),
  (0x1CF50, 0x1CFC3, prN),
  (0x1D000, 0x1D0F5, prN),
  (0x1D100, 0x1D126, prN),
  (0x1D129, 0x1D164, prN),
  (0x1D165, 0x1D166, prN),
  (0x1D167, 0x1D169, prN),
  (0x1D16A, 0x1D16C, prN),
  (0x1D16D, 0x1D172, prN),
  (0x1D173, 0x1D17A, prN),
  (0x1D17B, 0x1D182, prN),
  (0x1D183, 0x1D184, prN),
  (0x1D185, 0x1D18B, prN),
  (0x1D18C, 0x1D1A9, prN),
  (0x1D1AA, 0x1D1AD, prN),
  (0x1D1AE, 0x1D1EA, prN),
  (0x1D200, 0x1D241, prN),
  (0x1D242, 0x1D244, prN),
  (0x1D245, 0x1D245, prN),
  (0x1D2E0, 0x1D2F3, prN),
  (0x1D300, 0x1D356, prN),
  (0x1D360, 0x1D378, prN),
  (0x1D400, 0x1D454, prN),
  (0x1D456, 0x1D49C, prN),
  (0x1D49E, 0x1D49F, prN),
  (0x1D4A2, 0x1D4A2, prN),
  (0x1D4A5, 0x1D4A6, prN),
  (0x1D4A9, 0x1D4AC, prN),
  (0x1D4AE, 0x1D4B9, prN),
  (0x1D4BB, 0x1D4BB, prN),
  (0x1D4BD, 0x1D4C3, prN),
  (0x1D4C5, 0x1D505, prN),
  (0x1D507, 0x1D50A, prN),
  (0x1D50D, 0x1D514, prN),
  (0x1D516, 0x1D51C, prN),
  (0x1D51E, 0x1D539, prN),
  (0x1D53B, 0x1D53E, prN),
  (0x1D540, 0x1D544, prN),
  (0x1D546, 0x1D546, prN)]

/-- rows 2304..2367 of `eastAsianWidth` -/
def eastAsianWidth_36 : List (Nat × Nat × Nat) := [
  (0x1D54A, 0x1D550, prN),
  (0x1D552, 0x1D6A5, prN),
  (0x1D6A8, 0x1D6C0, prN),
  (0x1D6C1, 0x1D6C1, prN),
  (0x1D6C2, 0x1D6DA, prN),
  (0x1D6DB, 0x1D6DB, prN),
  (0x1D6DC, 0x1D6FA, prN),
  (0x1D6FB, 0x1D6FB, prN),
  (0x1D6FC, 0x1D714, prN),
  (0x1D715, 0x1D715, prN),
  (0x1D716, 0x1D734, prN),
  (0x1D735, 0x1D735, prN),
  (0x1D736, 0x1D74E, prN),
  (0x1D74F, 0x1D74F, prN),
  (0x1D750, 0x1D76E, prN),
  (0x1D76F, 0x1D76F, prN),
  (0x1D770, 0x1D788, prN),
  (0x1D789, 0x1D789, prN),
  (0x1D78A, 0x1D7A8, prN),
  (0x1D7A9, 0x1D7A9, prN),
  (0x1D7AA, 0x1D7C2, prN),
  (0x1D7C3, 0x1D7C3, prN),
  (0x1D7C4, 0x1D7CB, prN),
  (0x1D7CE, 0x1D7FF, prN),
  (0x1D800, 0x1D9FF, prN),
  (0x1DA00, 0x1DA36, prN),
  (0x1DA37, 0x1DA3A, prN),
  (0x1DA3B, 0x1DA6C, prN),
  (0x1DA6D, 0x1DA74, prN),
  (0x1DA75, 0x1DA75, prN),
  (0x1DA76, 0x1DA83, prN),
  (0x1DA84, 0x1DA84, prN),
  (0x1DA85, 0x1DA86, prN),
  (0x1DA87, 0x1DA8B, prN),
  (0x1DA9B, 0x1DA9F, prN),
  (0x1DAA1, 0x1DAAF, prN),
  (0x1DF00, 0x1DF09, prN),
  (0x1DF0A, 0x1DF0A, prN),
  (0x1DF0B, 0x1DF1E, prN),
  (0x1E000, 0x1E006, prN),
  (0x1E008, 0x1E018, prN),
  (0x1E01B, 0x1E021, prN),
  (0x1E023, 0x1E024, prN),
  (0x1E026, 0x1E02A, prN),
  (0x1E100, 0x1E12C, prN),
  (0x1E130, 0x1E136, prN),
  (0x1E137, 0x1E13D, prN),
  (0x1E140, 0x1E149, prN),
  (0x1E14E, 0x1E14E, prN),
  (0x1E14F, 0x1E14F, prN),
  (0x1E290, 0x1E2AD, prN),
  (0x1E2AE, 0x1E2AE, prN),
  (0x1E2C0, 0x1E2EB, prN),
  (0x1E2EC, 0x1E2EF, prN),
  (0x1E2F0, 0x1E2F9, prN),
  (0x1E2FF, 0x1E2FF, prN),
  (0x1E7E0, 0x1E7E6, prN),
  (0x1E7E8, 0x1E7EB, prN),
  (0x1E7ED, 0x1E7EE, prN),
  (0x1E7F0, 0x1E7FE, prN),
  (0x1E800, 0x1E8C4, prN),
  (0x1E8C7, 0x1E8CF, prN),
  (0x1E8D0, 0x1E8D6, prN),
  (0x1E900, 0x1E943, prN)]

/-- rows 2368..2431 of `eastAsianWidth` -/
def eastAsianWidth_37 : List (Nat × Nat × Nat) := [
  (0x1E944, 0x1E94A, prN),
  (0x1E94B, 0x1E94B, prN),
  (0x1E950, 0x1E959, prN),
  (0x1E95E, 0x1E95F, prN),
  (0x1EC71, 0x1ECAB, prN),
  (0x1ECAC, 0x1ECAC, prN),
  (0x1ECAD, 0x1ECAF, prN),
  (0x1ECB0, 0x1ECB0, prN),
  (0x1ECB1, 0x1ECB4, prN),
  (0x1ED01, 0x1ED2D, prN),
  (0x1ED2E, 0x1ED2E, prN),
  (0x1ED2F, 0x1ED3D, prN),
  (0x1EE00, 0x1EE03, prN),
  (0x1EE05, 0x1EE1F, prN),
  (0x1EE21, 0x1EE22, prN),
  (0x1EE24, 0x1EE24, prN),
  (0x1EE27, 0x1EE27, prN),
  (0x1EE29, 0x1EE32, prN),
  (0x1EE34, 0x1EE37, prN),
  (0x1EE39, 0x1EE39, prN),
  (0x1EE3B, 0x1EE3B, prN),
  (0x1EE42, 0x1EE42, prN),
  (0x1EE47, 0x1EE47, prN),
  (0x1EE49, 0x1EE49, prN),
  (0x1EE4B, 0x1EE4B, prN),
  (0x1EE4D, 0x1EE4F, prN),
  (0x1EE51, 0x1EE52, prN),
  (0x1EE54, 0x1EE54, prN),
  (0x1EE57, 0x1EE57, prN),
  (0x1EE59, 0x1EE59, prN),
  (0x1EE5B, 0x1EE5B, prN),
  (0x1EE5D, 0x1EE5D, prN),
  (0x1EE5F, 0x1EE5F, prN),
  (0x1EE61, 0x1EE62, prN),
  (0x1EE64, 0x1EE64, prN),
  (0x1EE67, 0x1EE6A, prN),
  (0x1EE6C, 0x1EE72, prN),
  (0x1EE74, 0x1EE77, prN),
  (0x1EE79, 0x1EE7C, prN),
  (0x1EE7E, 0x1EE7E, prN),
  (0x1EE80, 0x1EE89, prN),
  (0x1EE8B, 0x1EE9B, prN),
  (0x1EEA1, 0x1EEA3, prN),
  (0x1EEA5, 0x1EEA9, prN),
  (0x1EEAB, 0x1EEBB, prN),
  (0x1EEF0, 0x1EEF1, prN),
  (0x1F000, 0x1F003, prN),
  (0x1F004, 0x1F004, prW),
  (0x1F005, 0x1F02B, prN),
  (0x1F030, 0x1F093, prN),
  (0x1F0A0, 0x1F0AE, prN),
  (0x1F0B1, 0x1F0BF, prN),
  (0x1F0C1, 0x1F0CE, prN),
  (0x1F0CF, 0x1F0CF, prW),
  (0x1F0D1, 0x1F0F5, prN),
  (0x1F100, 0x1F10A, prA),
  (0x1F10B, 0x1F10C, prN),
  (0x1F10D, 0x1F10F, prN),
  (0x1F110, 0x1F12D, prA),
  (0x1F12E, 0x1F12F, prN),
  (0x1F130, 0x1F169, prA),
  (0x1F16A, 0x1F16F, prN),
  (0x1F170, 0x1F18D, prA),
  (0x1F18E, 0x1F18E, prW)]

/-- rows 2432..2495 of `eastAsianWidth` -/
def eastAsianWidth_38 : List (Nat × Nat × Nat) := [
  (0x1F18F, 0x1F190, prA),
  (0x1F191, 0x1F19A, prW),
  (0x1F19B, 0x1F1AC, prA),
  (0x1F1AD, 0x1F1AD, prN),
  (0x1F1E6, 0x1F1FF, prN),
  (0x1F200, 0x1F202, prW),
  (0x1F210, 0x1F23B, prW),
  (0x1F240, 0x1F248, prW),
  (0x1F250, 0x1F251, prW),
  (0x1F260, 0x1F265, prW),
  (0x1F300, 0x1F320, prW),
  (0x1F321, 0x1F32C, prN),
  (0x1F32D, 0x1F335, prW),
  (0x1F336, 0x1F336, prN),
  (0x1F337, 0x1F37C, prW),
  (0x1F37D, 0x1F37D, prN),
  (0x1F37E, 0x1F393, prW),
  (0x1F394, 0x1F39F, prN),
  (0x1F3A0, 0x1F3CA, prW),
  (0x1F3CB, 0x1F3CE, prN),
  (0x1F3CF, 0x1F3D3, prW),
  (0x1F3D4, 0x1F3DF, prN),
  (0x1F3E0, 0x1F3F0, prW),
  (0x1F3F1, 0x1F3F3, prN),
  (0x1F3F4, 0x1F3F4, prW),
  (0x1F3F5, 0x1F3F7, prN),
  (0x1F3F8, 0x1F3FA, prW),
  (0x1F3FB, 0x1F3FF, prW),
  (0x1F400, 0x1F43E, prW),
  (0x1F43F, 0x1F43F, prN),
  (0x1F440, 0x1F440, prW),
  (0x1F441, 0x1F441, prN),
  (0x1F442, 0x1F4FC, prW),
  (0x1F4FD, 0x1F4FE, prN),
  (0x1F4FF, 0x1F53D, prW),
  (0x1F53E, 0x1F54A, prN),
  (0x1F54B, 0x1F54E, prW),
  (0x1F54F, 0x1F54F, prN),
  (0x1F550, 0x1F567, prW),
  (0x1F568, 0x1F579, prN),
  (0x1F57A, 0x1F57A, prW),
  (0x1F57B, 0x1F594, prN),
  (0x1F595, 0x1F596, prW),
  (0x1F597, 0x1F5A3, prN),
  (0x1F5A4, 0x1F5A4, prW),
  (0x1F5A5, 0x1F5FA, prN),
  (0x1F5FB, 0x1F5FF, prW),
  (0x1F600, 0x1F64F, prW),
  (0x1F650, 0x1F67F, prN),
  (0x1F680, 0x1F6C5, prW),
  (0x1F6C6, 0x1F6CB, prN),
  (0x1F6CC, 0x1F6CC, prW),
  (0x1F6CD, 0x1F6CF, prN),
  (0x1F6D0, 0x1F6D2, prW),
  (0x1F6D3, 0x1F6D4, prN),
  (0x1F6D5, 0x1F6D7, prW),
  (0x1F6DD, 0x1F6DF, prW),
  (0x1F6E0, 0x1F6EA, prN),
  (0x1F6EB, 0x1F6EC, prW),
  (0x1F6F0, 0x1F6F3, prN),
  (0x1F6F4, 0x1F6FC, prW),
  (0x1F700, 0x1F773, prN),
  (0x1F780, 0x1F7D8, prN),
  (0x1F7E0, 0x1F7EB, prW)]

/-- rows 2496..2542 of `eastAsianWidth` -/
def eastAsianWidth_39 : List (Nat × Nat × Nat) := [
  (0x1F7F0, 0x1F7F0, prW),
  (0x1F800, 0x1F80B, prN),
  (0x1F810, 0x1F847, prN),
  (0x1F850, 0x1F859, prN),
  (0x1F860, 0x1F887, prN),
  (0x1F890, 0x1F8AD, prN),
  (0x1F8B0, 0x1F8B1, prN),
  (0x1F900, 0x1F90B, prN),
  (0x1F90C, 0x1F93A, prW),
  (0x1F93B, 0x1F93B, prN),
  (0x1F93C, 0x1F945, prW),
  (0x1F946, 0x1F946, prN),
  (0x1F947, 0x1F9FF, prW),
  (0x1FA00, 0x1FA53, prN),
  (0x1FA60, 0x1FA6D, prN),
  (0x1FA70, 0x1FA74, prW),
  (0x1FA78, 0x1FA7C, prW),
  (0x1FA80, 0x1FA86, prW),
  (0x1FA90, 0x1FAAC, prW),
  (0x1FAB0, 0x1FABA, prW),
  (0x1FAC0, 0x1FAC5, prW),
  (0x1FAD0, 0x1FAD9, prW),
  (0x1FAE0, 0x1FAE7, prW),
  (0x1FAF0, 0x1FAF6, prW),
  (0x1FB00, 0x1FB92, prN),
  (0x1FB94, 0x1FBCA, prN),
  (0x1FBF0, 0x1FBF9, prN),
  (0x20000, 0x2A6DF, prW),
  (0x2A6E0, 0x2A6FF, prW),
  (0x2A700, 0x2B738, prW),
  (0x2B739, 0x2B73F, prW),
  (0x2B740, 0x2B81D, prW),
  (0x2B81E, 0x2B81F, prW),
  (0x2B820, 0x2CEA1, prW),
  (0x2CEA2, 0x2CEAF, prW),
  (0x2CEB0, 0x2EBE0, prW),
  (0x2EBE1, 0x2F7FF, prW),
  (0x2F800, 0x2FA1D, prW),
  (0x2FA1E, 0x2FA1F, prW),
  (0x2FA20, 0x2FFFD, prW),
  (0x30000, 0x3134A, prW),
  (0x3134B, 0x3FFFD, prW),
  (0xE0001, 0xE0001, prN),
  (0xE0020, 0xE007F, prN),
  (0xE0100, 0xE01EF, prA),
  (0xF0000, 0xFFFFD, prA),
  (0x100000, 0x10FFFD, prA)]

/-- /repo/runewidth/uniseg/eastasianwidth.go:12-2556 `eastAsianWidth` -/
def eastAsianWidth : List (Nat × Nat × Nat) :=
  eastAsianWidth_0 ++ (eastAsianWidth_1 ++ (eastAsianWidth_2 ++ (eastAsianWidth_3 ++ (eastAsianWidth_4 ++ (eastAsianWidth_5 ++ (eastAsianWidth_6 ++ (eastAsianWidth_7 ++ (eastAsianWidth_8 ++ (eastAsianWidth_9 ++ (eastAsianWidth_10 ++ (eastAsianWidth_11 ++ (eastAsianWidth_12 ++ (eastAsianWidth_13 ++ (eastAsianWidth_14 ++ (eastAsianWidth_15 ++ (eastAsianWidth_16 ++ (eastAsianWidth_17 ++ (eastAsianWidth_18 ++ (eastAsianWidth_19 ++ (eastAsianWidth_20 ++ (eastAsianWidth_21 ++ (eastAsianWidth_22 ++ (eastAsianWidth_23 ++ (eastAsianWidth_24 ++ (eastAsianWidth_25 ++ (eastAsianWidth_26 ++ (eastAsianWidth_27 ++ (eastAsianWidth_28 ++ (eastAsianWidth_29 ++ (eastAsianWidth_30 ++ (eastAsianWidth_31 ++ (eastAsianWidth_32 ++ (eastAsianWidth_33 ++ (eastAsianWidth_34 ++ (eastAsianWidth_35 ++ (eastAsianWidth_36 ++ (eastAsianWidth_37 ++ (eastAsianWidth_38 ++ (eastAsianWidth_39)))))))))))))))))))))))))))))))))))))))

end GoTable
