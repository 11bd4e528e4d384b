import Verif.Spec.Canonical
/-!
# Specification: composed and decomposed spelling
-/

namespace GoTable.Spec

/-- A precomposed Hangul syllable. -/
def Syllable (r : Nat) : Prop := 0xAC00 ≤ r ∧ r ≤ 0xD7A3

instance (r : Nat) : Decidable (Syllable r) := by unfold Syllable; infer_instance

/-- The letters of a Hangul syllable, by the arithmetic of the Unicode standard, section 3.12. -/
def jamo (r : Nat) : List Nat :=
  let i := r - 0xAC00
  [0x1100 + i / 588, 0x1161 + i % 588 / 28] ++ if i % 28 = 0 then [] else [0x11A7 + i % 28]

/-- The full canonical decomposition of a character; the character itself if it has none. -/
def spelledOut (r : Nat) : List Nat :=
  if Syllable r then jamo r else (canonical.lookup r).getD [r]

/-- Some characters of a text are spelled out, others are kept. Those of `ex` are kept. -/
inductive Respelled (ex : Nat → Prop) : List Nat → List Nat → Prop
  | nil : Respelled ex [] []
  | keep (r : Nat) (rs rs' : List Nat) (h : Respelled ex rs rs') : Respelled ex (r :: rs) (r :: rs')
  | spell (r : Nat) (rs rs' : List Nat) (hr : ¬ ex r) (h : Respelled ex rs rs') :
      Respelled ex (r :: rs) (spelledOut r ++ rs')

/-- An arrow whose decomposition starts with a pictograph, and vowel signs that are spacing marks while their
decompositions are not: next to U+200D these decide whether emoji are joined. -/
def contextual : List Nat := [0x21AE, 0xCC0, 0xCC7, 0xCC8, 0xCCA, 0xCCB, 0x1B3B, 0x1B3D, 0x1B43]

/-- With the East Asian flag these take one cell, spelled out two: letters with accents, most of them Greek or Cyrillic,
and struck out symbols. -/
def narrowComposed : List (Nat × Nat) :=
  [(0x1E2, 0x1E3), (0x1FC, 0x1FF), (0x385, 0x38A), (0x38C, 0x38C), (0x38E, 0x390), (0x3AA, 0x3B0), (0x3CA, 0x3CE),
    (0x400, 0x400), (0x403, 0x403), (0x40C, 0x40E), (0x450, 0x450), (0x453, 0x453), (0x45C, 0x45E), (0x4C1, 0x4C2),
    (0x4D0, 0x4D3), (0x4D6, 0x4D7), (0x4DC, 0x4DF), (0x4E2, 0x4E7), (0x4EC, 0x4F5), (0x4F8, 0x4F9), (0x1F00, 0x1F15),
    (0x1F18, 0x1F1D), (0x1F20, 0x1F45), (0x1F48, 0x1F4D), (0x1F50, 0x1F57), (0x1F59, 0x1F59), (0x1F5B, 0x1F5B),
    (0x1F5D, 0x1F5D), (0x1F5F, 0x1F7D), (0x1F80, 0x1FB4), (0x1FB6, 0x1FBC), (0x1FBE, 0x1FBE), (0x1FC1, 0x1FC4),
    (0x1FC6, 0x1FCC), (0x1FD0, 0x1FD3), (0x1FD6, 0x1FDB), (0x1FE0, 0x1FEE), (0x1FF2, 0x1FF4), (0x1FF6, 0x1FFD),
    (0x219A, 0x219B), (0x21AE, 0x21AE), (0x21CE, 0x21CF), (0x2204, 0x2204), (0x2209, 0x2209), (0x220C, 0x220C),
    (0x2224, 0x2224), (0x2226, 0x2226), (0x2241, 0x2241), (0x2249, 0x2249), (0x2262, 0x2262), (0x2270, 0x2271),
    (0x2284, 0x2285), (0x2288, 0x2289)]

/-- With the East Asian flag these take two cells, spelled out one: letters of Pinyin and other accented Latin letters,
the Ångström sign, struck out signs of comparison. -/
def wideComposed : List (Nat × Nat) :=
  [(0xE0, 0xE1), (0xE8, 0xEA), (0xEC, 0xED), (0xF2, 0xF3), (0xF9, 0xFA), (0xFC, 0xFC), (0x101, 0x101), (0x113, 0x113),
    (0x11B, 0x11B), (0x12B, 0x12B), (0x144, 0x144), (0x148, 0x148), (0x14D, 0x14D), (0x16B, 0x16B), (0x1CE, 0x1CE),
    (0x1D0, 0x1D0), (0x1D2, 0x1D2), (0x1D4, 0x1D4), (0x1D6, 0x1D6), (0x1D8, 0x1D8), (0x1DA, 0x1DA), (0x1DC, 0x1DC),
    (0x212B, 0x212B), (0x2260, 0x2260), (0x226E, 0x226F)]

end GoTable.Spec
