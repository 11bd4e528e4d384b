import Verif.Model.Tables.Props
/-! Generated by tools/gen_tables.py from /repo/runewidth/uniseg/emojipresentation.go. -/

namespace GoTable

/-- rows 0..63 of `emojiPresentation` -/
def emojiPresentation_0 : List (Nat × Nat × Nat) := [
  (0x231A, 0x231B, prEmojiPresentation),
  (0x23E9, 0x23EC, prEmojiPresentation),
  (0x23F0, 0x23F0, prEmojiPresentation),
  (0x23F3, 0x23F3, prEmojiPresentation),
  (0x25FD, 0x25FE, prEmojiPresentation),
  (0x2614, 0x2615, prEmojiPresentation),
  (0x2648, 0x2653, prEmojiPresentation),
  (0x267F, 0x267F, prEmojiPresentation),
  (0x2693, 0x2693, prEmojiPresentation),
  (0x26A1, 0x26A1, prEmojiPresentation),
  (0x26AA, 0x26AB, prEmojiPresentation),
  (0x26BD, 0x26BE, prEmojiPresentation),
  (0x26C4, 0x26C5, prEmojiPresentation),
  (0x26CE, 0x26CE, prEmojiPresentation),
  (0x26D4, 0x26D4, prEmojiPresentation),
  (0x26EA, 0x26EA, prEmojiPresentation),
  (0x26F2, 0x26F3, prEmojiPresentation),
  (0x26F5, 0x26F5, prEmojiPresentation),
  (0x26FA, 0x26FA, prEmojiPresentation),
  (0x26FD, 0x26FD, prEmojiPresentation),
  (0x2705, 0x2705, prEmojiPresentation),
  (0x270A, 0x270B, prEmojiPresentation),
  (0x2728, 0x2728, prEmojiPresentation),
  (0x274C, 0x274C, prEmojiPresentation),
  (0x274E, 0x274E, prEmojiPresentation),
  (0x2753, 0x2755, prEmojiPresentation),
  (0x2757, 0x2757, prEmojiPresentation),
  (0x2795, 0x2797, prEmojiPresentation),
  (0x27B0, 0x27B0, prEmojiPresentation),
  (0x27BF, 0x27BF, prEmojiPresentation),
  (0x2B1B, 0x2B1C, prEmojiPresentation),
  (0x2B50, 0x2B50, prEmojiPresentation),
  (0x2B55, 0x2B55, prEmojiPresentation),
  (0x1F004, 0x1F004, prEmojiPresentation),
  (0x1F0CF, 0x1F0CF, prEmojiPresentation),
  (0x1F18E, 0x1F18E, prEmojiPresentation),
  (0x1F191, 0x1F19A, prEmojiPresentation),
  (0x1F1E6, 0x1F1FF, prEmojiPresentation),
  (0x1F201, 0x1F201, prEmojiPresentation),
  (0x1F21A, 0x1F21A, prEmojiPresentation),
  (0x1F22F, 0x1F22F, prEmojiPresentation),
  (0x1F232, 0x1F236, prEmojiPresentation),
  (0x1F238, 0x1F23A, prEmojiPresentation),
  (0x1F250, 0x1F251, prEmojiPresentation),
  (0x1F300, 0x1F30C, prEmojiPresentation),
  (0x1F30D, 0x1F30E, prEmojiPresentation),
  (0x1F30F, 0x1F30F, prEmojiPresentation),
  (0x1F310, 0x1F310, prEmojiPresentation),
  (0x1F311, 0x1F311, prEmojiPresentation),
  (0x1F312, 0x1F312, prEmojiPresentation),
  (0x1F313, 0x1F315, prEmojiPresentation),
  (0x1F316, 0x1F318, prEmojiPresentation),
  (0x1F319, 0x1F319, prEmojiPresentation),
  (0x1F31A, 0x1F31A, prEmojiPresentation),
  (0x1F31B, 0x1F31B, prEmojiPresentation),
  (0x1F31C, 0x1F31C, prEmojiPresentation),
  (0x1F31D, 0x1F31E, prEmojiPresentation),
  (0x1F31F, 0x1F320, prEmojiPresentation),
  (0x1F32D, 0x1F32F, prEmojiPresentation),
  (0x1F330, 0x1F331, prEmojiPresentation),
  (0x1F332, 0x1F333, prEmojiPresentation),
  (0x1F334, 0x1F335, prEmojiPresentation),
  (0x1F337, 0x1F34A, prEmojiPresentation),
  (0x1F34B, 0x1F34B, prEmojiPresentation)]

/-- rows 64..127 of `emojiPresentation` -/
def emojiPresentation_1 : List (Nat × Nat × Nat) := [
  (0x1F34C, 0x1F34F, prEmojiPresentation),
  (0x1F350, 0x1F350, prEmojiPresentation),
  (0x1F351, 0x1F37B, prEmojiPresentation),
  (0x1F37C, 0x1F37C, prEmojiPresentation),
  (0x1F37E, 0x1F37F, prEmojiPresentation),
  (0x1F380, 0x1F393, prEmojiPresentation),
  (0x1F3A0, 0x1F3C4, prEmojiPresentation),
  (0x1F3C5, 0x1F3C5, prEmojiPresentation),
  (0x1F3C6, 0x1F3C6, prEmojiPresentation),
  (0x1F3C7, 0x1F3C7, prEmojiPresentation),
  (0x1F3C8, 0x1F3C8, prEmojiPresentation),
  (0x1F3C9, 0x1F3C9, prEmojiPresentation),
  (0x1F3CA, 0x1F3CA, prEmojiPresentation),
  (0x1F3CF, 0x1F3D3, prEmojiPresentation),
  (0x1F3E0, 0x1F3E3, prEmojiPresentation),
  (0x1F3E4, 0x1F3E4, prEmojiPresentation),
  (0x1F3E5, 0x1F3F0, prEmojiPresentation),
  (0x1F3F4, 0x1F3F4, prEmojiPresentation),
  (0x1F3F8, 0x1F407, prEmojiPresentation),
  (0x1F408, 0x1F408, prEmojiPresentation),
  (0x1F409, 0x1F40B, prEmojiPresentation),
  (0x1F40C, 0x1F40E, prEmojiPresentation),
  (0x1F40F, 0x1F410, prEmojiPresentation),
  (0x1F411, 0x1F412, prEmojiPresentation),
  (0x1F413, 0x1F413, prEmojiPresentation),
  (0x1F414, 0x1F414, prEmojiPresentation),
  (0x1F415, 0x1F415, prEmojiPresentation),
  (0x1F416, 0x1F416, prEmojiPresentation),
  (0x1F417, 0x1F429, prEmojiPresentation),
  (0x1F42A, 0x1F42A, prEmojiPresentation),
  (0x1F42B, 0x1F43E, prEmojiPresentation),
  (0x1F440, 0x1F440, prEmojiPresentation),
  (0x1F442, 0x1F464, prEmojiPresentation),
  (0x1F465, 0x1F465, prEmojiPresentation),
  (0x1F466, 0x1F46B, prEmojiPresentation),
  (0x1F46C, 0x1F46D, prEmojiPresentation),
  (0x1F46E, 0x1F4AC, prEmojiPresentation),
  (0x1F4AD, 0x1F4AD, prEmojiPresentation),
  (0x1F4AE, 0x1F4B5, prEmojiPresentation),
  (0x1F4B6, 0x1F4B7, prEmojiPresentation),
  (0x1F4B8, 0x1F4EB, prEmojiPresentation),
  (0x1F4EC, 0x1F4ED, prEmojiPresentation),
  (0x1F4EE, 0x1F4EE, prEmojiPresentation),
  (0x1F4EF, 0x1F4EF, prEmojiPresentation),
  (0x1F4F0, 0x1F4F4, prEmojiPresentation),
  (0x1F4F5, 0x1F4F5, prEmojiPresentation),
  (0x1F4F6, 0x1F4F7, prEmojiPresentation),
  (0x1F4F8, 0x1F4F8, prEmojiPresentation),
  (0x1F4F9, 0x1F4FC, prEmojiPresentation),
  (0x1F4FF, 0x1F502, prEmojiPresentation),
  (0x1F503, 0x1F503, prEmojiPresentation),
  (0x1F504, 0x1F507, prEmojiPresentation),
  (0x1F508, 0x1F508, prEmojiPresentation),
  (0x1F509, 0x1F509, prEmojiPresentation),
  (0x1F50A, 0x1F514, prEmojiPresentation),
  (0x1F515, 0x1F515, prEmojiPresentation),
  (0x1F516, 0x1F52B, prEmojiPresentation),
  (0x1F52C, 0x1F52D, prEmojiPresentation),
  (0x1F52E, 0x1F53D, prEmojiPresentation),
  (0x1F54B, 0x1F54E, prEmojiPresentation),
  (0x1F550, 0x1F55B, prEmojiPresentation),
  (0x1F55C, 0x1F567, prEmojiPresentation),
  (0x1F57A, 0x1F57A, prEmojiPresentation),
  (0x1F595, 0x1F596, prEmojiPresentation)]

/-- rows 128..191 of `emojiPresentation` -/
def emojiPresentation_2 : List (Nat × Nat × Nat) := [
  (0x1F5A4, 0x1F5A4, prEmojiPresentation),
  (0x1F5FB, 0x1F5FF, prEmojiPresentation),
  (0x1F600, 0x1F600, prEmojiPresentation),
  (0x1F601, 0x1F606, prEmojiPresentation),
  (0x1F607, 0x1F608, prEmojiPresentation),
  (0x1F609, 0x1F60D, prEmojiPresentation),
  (0x1F60E, 0x1F60E, prEmojiPresentation),
  (0x1F60F, 0x1F60F, prEmojiPresentation),
  (0x1F610, 0x1F610, prEmojiPresentation),
  (0x1F611, 0x1F611, prEmojiPresentation),
  (0x1F612, 0x1F614, prEmojiPresentation),
  (0x1F615, 0x1F615, prEmojiPresentation),
  (0x1F616, 0x1F616, prEmojiPresentation),
  (0x1F617, 0x1F617, prEmojiPresentation),
  (0x1F618, 0x1F618, prEmojiPresentation),
  (0x1F619, 0x1F619, prEmojiPresentation),
  (0x1F61A, 0x1F61A, prEmojiPresentation),
  (0x1F61B, 0x1F61B, prEmojiPresentation),
  (0x1F61C, 0x1F61E, prEmojiPresentation),
  (0x1F61F, 0x1F61F, prEmojiPresentation),
  (0x1F620, 0x1F625, prEmojiPresentation),
  (0x1F626, 0x1F627, prEmojiPresentation),
  (0x1F628, 0x1F62B, prEmojiPresentation),
  (0x1F62C, 0x1F62C, prEmojiPresentation),
  (0x1F62D, 0x1F62D, prEmojiPresentation),
  (0x1F62E, 0x1F62F, prEmojiPresentation),
  (0x1F630, 0x1F633, prEmojiPresentation),
  (0x1F634, 0x1F634, prEmojiPresentation),
  (0x1F635, 0x1F635, prEmojiPresentation),
  (0x1F636, 0x1F636, prEmojiPresentation),
  (0x1F637, 0x1F640, prEmojiPresentation),
  (0x1F641, 0x1F644, prEmojiPresentation),
  (0x1F645, 0x1F64F, prEmojiPresentation),
  (0x1F680, 0x1F680, prEmojiPresentation),
  (0x1F681, 0x1F682, prEmojiPresentation),
  (0x1F683, 0x1F685, prEmojiPresentation),
  (0x1F686, 0x1F686, prEmojiPresentation),
  (0x1F687, 0x1F687, prEmojiPresentation),
  (0x1F688, 0x1F688, prEmojiPresentation),
  (0x1F689, 0x1F689, prEmojiPresentation),
  (0x1F68A, 0x1F68B, prEmojiPresentation),
  (0x1F68C, 0x1F68C, prEmojiPresentation),
  (0x1F68D, 0x1F68D, prEmojiPresentation),
  (0x1F68E, 0x1F68E, prEmojiPresentation),
  (0x1F68F, 0x1F68F, prEmojiPresentation),
  (0x1F690, 0x1F690, prEmojiPresentation),
  (0x1F691, 0x1F693, prEmojiPresentation),
  (0x1F694, 0x1F694, prEmojiPresentation),
  (0x1F695, 0x1F695, prEmojiPresentation),
  (0x1F696, 0x1F696, prEmojiPresentation),
  (0x1F697, 0x1F697, prEmojiPresentation),
  (0x1F698, 0x1F698, prEmojiPresentation),
  (0x1F699, 0x1F69A, prEmojiPresentation),
  (0x1F69B, 0x1F6A1, prEmojiPresentation),
  (0x1F6A2, 0x1F6A2, prEmojiPresentation),
  (0x1F6A3, 0x1F6A3, prEmojiPresentation),
  (0x1F6A4, 0x1F6A5, prEmojiPresentation),
  (0x1F6A6, 0x1F6A6, prEmojiPresentation),
  (0x1F6A7, 0x1F6AD, prEmojiPresentation),
  (0x1F6AE, 0x1F6B1, prEmojiPresentation),
  (0x1F6B2, 0x1F6B2, prEmojiPresentation),
  (0x1F6B3, 0x1F6B5, prEmojiPresentation),
  (0x1F6B6, 0x1F6B6, prEmojiPresentation),
  (0x1F6B7, 0x1F6B8, prEmojiPresentation)]

/-- rows 192..255 of `emojiPresentation` -/
def emojiPresentation_3 : List (Nat × Nat × Nat) := [
  (0x1F6B9, 0x1F6BE, prEmojiPresentation),
  (0x1F6BF, 0x1F6BF, prEmojiPresentation),
  (0x1F6C0, 0x1F6C0, prEmojiPresentation),
  (0x1F6C1, 0x1F6C5, prEmojiPresentation),
  (0x1F6CC, 0x1F6CC, prEmojiPresentation),
  (0x1F6D0, 0x1F6D0, prEmojiPresentation),
  (0x1F6D1, 0x1F6D2, prEmojiPresentation),
  (0x1F6D5, 0x1F6D5, prEmojiPresentation),
  (0x1F6D6, 0x1F6D7, prEmojiPresentation),
  (0x1F6DD, 0x1F6DF, prEmojiPresentation),
  (0x1F6EB, 0x1F6EC, prEmojiPresentation),
  (0x1F6F4, 0x1F6F6, prEmojiPresentation),
  (0x1F6F7, 0x1F6F8, prEmojiPresentation),
  (0x1F6F9, 0x1F6F9, prEmojiPresentation),
  (0x1F6FA, 0x1F6FA, prEmojiPresentation),
  (0x1F6FB, 0x1F6FC, prEmojiPresentation),
  (0x1F7E0, 0x1F7EB, prEmojiPresentation),
  (0x1F7F0, 0x1F7F0, prEmojiPresentation),
  (0x1F90C, 0x1F90C, prEmojiPresentation),
  (0x1F90D, 0x1F90F, prEmojiPresentation),
  (0x1F910, 0x1F918, prEmojiPresentation),
  (0x1F919, 0x1F91E, prEmojiPresentation),
  (0x1F91F, 0x1F91F, prEmojiPresentation),
  (0x1F920, 0x1F927, prEmojiPresentation),
  (0x1F928, 0x1F92F, prEmojiPresentation),
  (0x1F930, 0x1F930, prEmojiPresentation),
  (0x1F931, 0x1F932, prEmojiPresentation),
  (0x1F933, 0x1F93A, prEmojiPresentation),
  (0x1F93C, 0x1F93E, prEmojiPresentation),
  (0x1F93F, 0x1F93F, prEmojiPresentation),
  (0x1F940, 0x1F945, prEmojiPresentation),
  (0x1F947, 0x1F94B, prEmojiPresentation),
  (0x1F94C, 0x1F94C, prEmojiPresentation),
  (0x1F94D, 0x1F94F, prEmojiPresentation),
  (0x1F950, 0x1F95E, prEmojiPresentation),
  (0x1F95F, 0x1F96B, prEmojiPresentation),
  (0x1F96C, 0x1F970, prEmojiPresentation),
  (0x1F971, 0x1F971, prEmojiPresentation),
  (0x1F972, 0x1F972, prEmojiPresentation),
  (0x1F973, 0x1F976, prEmojiPresentation),
  (0x1F977, 0x1F978, prEmojiPresentation),
  (0x1F979, 0x1F979, prEmojiPresentation),
  (0x1F97A, 0x1F97A, prEmojiPresentation),
  (0x1F97B, 0x1F97B, prEmojiPresentation),
  (0x1F97C, 0x1F97F, prEmojiPresentation),
  (0x1F980, 0x1F984, prEmojiPresentation),
  (0x1F985, 0x1F991, prEmojiPresentation),
  (0x1F992, 0x1F997, prEmojiPresentation),
  (0x1F998, 0x1F9A2, prEmojiPresentation),
  (0x1F9A3, 0x1F9A4, prEmojiPresentation),
  (0x1F9A5, 0x1F9AA, prEmojiPresentation),
  (0x1F9AB, 0x1F9AD, prEmojiPresentation),
  (0x1F9AE, 0x1F9AF, prEmojiPresentation),
  (0x1F9B0, 0x1F9B9, prEmojiPresentation),
  (0x1F9BA, 0x1F9BF, prEmojiPresentation),
  (0x1F9C0, 0x1F9C0, prEmojiPresentation),
  (0x1F9C1, 0x1F9C2, prEmojiPresentation),
  (0x1F9C3, 0x1F9CA, prEmojiPresentation),
  (0x1F9CB, 0x1F9CB, prEmojiPresentation),
  (0x1F9CC, 0x1F9CC, prEmojiPresentation),
  (0x1F9CD, 0x1F9CF, prEmojiPresentation),
  (0x1F9D0, 0x1F9E6, prEmojiPresentation),
  (0x1F9E7, 0x1F9FF, prEmojiPresentation),
  (0x1FA70, 0x1FA73, prEmojiPresentation)]

/-- rows 256..271 of `emojiPresentation` -/
def emojiPresentation_4 : List (Nat × Nat × Nat) := [
  (0x1FA74, 0x1FA74, prEmojiPresentation),
  (0x1FA78, 0x1FA7A, prEmojiPresentation),
  (0x1FA7B, 0x1FA7C, prEmojiPresentation),
  (0x1FA80, 0x1FA82, prEmojiPresentation),
  (0x1FA83, 0x1FA86, prEmojiPresentation),
  (0x1FA90, 0x1FA95, prEmojiPresentation),
  (0x1FA96, 0x1FAA8, prEmojiPresentation),
  (0x1FAA9, 0x1FAAC, prEmojiPresentation),
  (0x1FAB0, 0x1FAB6, prEmojiPresentation),
  (0x1FAB7, 0x1FABA, prEmojiPresentation),
  (0x1FAC0, 0x1FAC2, prEmojiPresentation),
  (0x1FAC3, 0x1FAC5, prEmojiPresentation),
  (0x1FAD0, 0x1FAD6, prEmojiPresentation),
  (0x1FAD7, 0x1FAD9, prEmojiPresentation),
  (0x1FAE0, 0x1FAE7, prEmojiPresentation),
  (0x1FAF0, 0x1FAF6, prEmojiPresentation)]

/-- /repo/runewidth/uniseg/emojipresentation.go:12-285 `emojiPresentation` -/
def emojiPresentation : List (Nat × Nat × Nat) :=
  emojiPresentation_0 ++ (emojiPresentation_1 ++ (emojiPresentation_2 ++ (emojiPresentation_3 ++ (emojiPresentation_4))))

end GoTable
