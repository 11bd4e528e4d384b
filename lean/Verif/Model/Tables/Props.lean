/-! Generated by tools/gen_tables.py from /repo/runewidth/uniseg/properties.go:5-90.

Note: `prAny = iota` stands on the second line of its const block, so its value is 1, not the 0 that
the comment next to it asks for; the model keeps the value the Go compiler gives it. -/

namespace GoTable

/-- /repo/runewidth/uniseg/properties.go:6 -/
abbrev prXX : Nat := 0
/-- /repo/runewidth/uniseg/properties.go:7 -/
abbrev prAny : Nat := 1
/-- /repo/runewidth/uniseg/properties.go:8 -/
abbrev prPrepend : Nat := 2
/-- /repo/runewidth/uniseg/properties.go:9 -/
abbrev prCR : Nat := 3
/-- /repo/runewidth/uniseg/properties.go:10 -/
abbrev prLF : Nat := 4
/-- /repo/runewidth/uniseg/properties.go:11 -/
abbrev prControl : Nat := 5
/-- /repo/runewidth/uniseg/properties.go:12 -/
abbrev prExtend : Nat := 6
/-- /repo/runewidth/uniseg/properties.go:13 -/
abbrev prRegionalIndicator : Nat := 7
/-- /repo/runewidth/uniseg/properties.go:14 -/
abbrev prSpacingMark : Nat := 8
/-- /repo/runewidth/uniseg/properties.go:15 -/
abbrev prL : Nat := 9
/-- /repo/runewidth/uniseg/properties.go:16 -/
abbrev prV : Nat := 10
/-- /repo/runewidth/uniseg/properties.go:17 -/
abbrev prT : Nat := 11
/-- /repo/runewidth/uniseg/properties.go:18 -/
abbrev prLV : Nat := 12
/-- /repo/runewidth/uniseg/properties.go:19 -/
abbrev prLVT : Nat := 13
/-- /repo/runewidth/uniseg/properties.go:20 -/
abbrev prZWJ : Nat := 14
/-- /repo/runewidth/uniseg/properties.go:21 -/
abbrev prExtendedPictographic : Nat := 15
/-- /repo/runewidth/uniseg/properties.go:22 -/
abbrev prNewline : Nat := 16
/-- /repo/runewidth/uniseg/properties.go:23 -/
abbrev prWSegSpace : Nat := 17
/-- /repo/runewidth/uniseg/properties.go:24 -/
abbrev prDoubleQuote : Nat := 18
/-- /repo/runewidth/uniseg/properties.go:25 -/
abbrev prSingleQuote : Nat := 19
/-- /repo/runewidth/uniseg/properties.go:26 -/
abbrev prMidNumLet : Nat := 20
/-- /repo/runewidth/uniseg/properties.go:27 -/
abbrev prNumeric : Nat := 21
/-- /repo/runewidth/uniseg/properties.go:28 -/
abbrev prMidLetter : Nat := 22
/-- /repo/runewidth/uniseg/properties.go:29 -/
abbrev prMidNum : Nat := 23
/-- /repo/runewidth/uniseg/properties.go:30 -/
abbrev prExtendNumLet : Nat := 24
/-- /repo/runewidth/uniseg/properties.go:31 -/
abbrev prALetter : Nat := 25
/-- /repo/runewidth/uniseg/properties.go:32 -/
abbrev prFormat : Nat := 26
/-- /repo/runewidth/uniseg/properties.go:33 -/
abbrev prHebrewLetter : Nat := 27
/-- /repo/runewidth/uniseg/properties.go:34 -/
abbrev prKatakana : Nat := 28
/-- /repo/runewidth/uniseg/properties.go:35 -/
abbrev prSp : Nat := 29
/-- /repo/runewidth/uniseg/properties.go:36 -/
abbrev prSTerm : Nat := 30
/-- /repo/runewidth/uniseg/properties.go:37 -/
abbrev prClose : Nat := 31
/-- /repo/runewidth/uniseg/properties.go:38 -/
abbrev prSContinue : Nat := 32
/-- /repo/runewidth/uniseg/properties.go:39 -/
abbrev prATerm : Nat := 33
/-- /repo/runewidth/uniseg/properties.go:40 -/
abbrev prUpper : Nat := 34
/-- /repo/runewidth/uniseg/properties.go:41 -/
abbrev prLower : Nat := 35
/-- /repo/runewidth/uniseg/properties.go:42 -/
abbrev prSep : Nat := 36
/-- /repo/runewidth/uniseg/properties.go:43 -/
abbrev prOLetter : Nat := 37
/-- /repo/runewidth/uniseg/properties.go:44 -/
abbrev prCM : Nat := 38
/-- /repo/runewidth/uniseg/properties.go:45 -/
abbrev prBA : Nat := 39
/-- /repo/runewidth/uniseg/properties.go:46 -/
abbrev prBK : Nat := 40
/-- /repo/runewidth/uniseg/properties.go:47 -/
abbrev prSP : Nat := 41
/-- /repo/runewidth/uniseg/properties.go:48 -/
abbrev prEX : Nat := 42
/-- /repo/runewidth/uniseg/properties.go:49 -/
abbrev prQU : Nat := 43
/-- /repo/runewidth/uniseg/properties.go:50 -/
abbrev prAL : Nat := 44
/-- /repo/runewidth/uniseg/properties.go:51 -/
abbrev prPR : Nat := 45
/-- /repo/runewidth/uniseg/properties.go:52 -/
abbrev prPO : Nat := 46
/-- /repo/runewidth/uniseg/properties.go:53 -/
abbrev prOP : Nat := 47
/-- /repo/runewidth/uniseg/properties.go:54 -/
abbrev prCP : Nat := 48
/-- /repo/runewidth/uniseg/properties.go:55 -/
abbrev prIS : Nat := 49
/-- /repo/runewidth/uniseg/properties.go:56 -/
abbrev prHY : Nat := 50
/-- /repo/runewidth/uniseg/properties.go:57 -/
abbrev prSY : Nat := 51
/-- /repo/runewidth/uniseg/properties.go:58 -/
abbrev prNU : Nat := 52
/-- /repo/runewidth/uniseg/properties.go:59 -/
abbrev prCL : Nat := 53
/-- /repo/runewidth/uniseg/properties.go:60 -/
abbrev prNL : Nat := 54
/-- /repo/runewidth/uniseg/properties.go:61 -/
abbrev prGL : Nat := 55
/-- /repo/runewidth/uniseg/properties.go:62 -/
abbrev prAI : Nat := 56
/-- /repo/runewidth/uniseg/properties.go:63 -/
abbrev prBB : Nat := 57
/-- /repo/runewidth/uniseg/properties.go:64 -/
abbrev prHL : Nat := 58
/-- /repo/runewidth/uniseg/properties.go:65 -/
abbrev prSA : Nat := 59
/-- /repo/runewidth/uniseg/properties.go:66 -/
abbrev prJL : Nat := 60
/-- /repo/runewidth/uniseg/properties.go:67 -/
abbrev prJV : Nat := 61
/-- /repo/runewidth/uniseg/properties.go:68 -/
abbrev prJT : Nat := 62
/-- /repo/runewidth/uniseg/properties.go:69 -/
abbrev prNS : Nat := 63
/-- /repo/runewidth/uniseg/properties.go:70 -/
abbrev prZW : Nat := 64
/-- /repo/runewidth/uniseg/properties.go:71 -/
abbrev prB2 : Nat := 65
/-- /repo/runewidth/uniseg/properties.go:72 -/
abbrev prIN : Nat := 66
/-- /repo/runewidth/uniseg/properties.go:73 -/
abbrev prWJ : Nat := 67
/-- /repo/runewidth/uniseg/properties.go:74 -/
abbrev prID : Nat := 68
/-- /repo/runewidth/uniseg/properties.go:75 -/
abbrev prEB : Nat := 69
/-- /repo/runewidth/uniseg/properties.go:76 -/
abbrev prCJ : Nat := 70
/-- /repo/runewidth/uniseg/properties.go:77 -/
abbrev prH2 : Nat := 71
/-- /repo/runewidth/uniseg/properties.go:78 -/
abbrev prH3 : Nat := 72
/-- /repo/runewidth/uniseg/properties.go:79 -/
abbrev prSG : Nat := 73
/-- /repo/runewidth/uniseg/properties.go:80 -/
abbrev prCB : Nat := 74
/-- /repo/runewidth/uniseg/properties.go:81 -/
abbrev prRI : Nat := 75
/-- /repo/runewidth/uniseg/properties.go:82 -/
abbrev prEM : Nat := 76
/-- /repo/runewidth/uniseg/properties.go:83 -/
abbrev prN : Nat := 77
/-- /repo/runewidth/uniseg/properties.go:84 -/
abbrev prNa : Nat := 78
/-- /repo/runewidth/uniseg/properties.go:85 -/
abbrev prA : Nat := 79
/-- /repo/runewidth/uniseg/properties.go:86 -/
abbrev prW : Nat := 80
/-- /repo/runewidth/uniseg/properties.go:87 -/
abbrev prH : Nat := 81
/-- /repo/runewidth/uniseg/properties.go:88 -/
abbrev prF : Nat := 82
/-- /repo/runewidth/uniseg/properties.go:89 -/
abbrev prEmojiPresentation : Nat := 83

end GoTable
