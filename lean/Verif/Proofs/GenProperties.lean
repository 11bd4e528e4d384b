import Verif.Model.GenProperties
import Verif.Spec.GenProperties
import Verif.Proofs.Locale
import Verif.Proofs.Tables
/-! The property table generator. -/

namespace GoTable
open Spec

theorem mem_starRun_cls (p : Nat → Bool) (hp : ∀ r, p r = true → r < 0x80) (s r : GoString) :
    r ∈ (Regex.star (.cls p)).run s ↔ ∃ d : GoString, s = d ++ r ∧ ∀ b ∈ d, p b.toNat = true := by
  rw [Regex.run]
  induction hn : s.length using Nat.strongRecOn generalizing s with
  | ind n ih =>
    subst hn
    rw [starRun, List.mem_append, List.mem_flatMap]
    constructor
    · rintro (⟨m, hm, h⟩ | h)
      · obtain ⟨b, rfl, hb⟩ := (mem_cls_ascii p hp s m).mp hm
        rw [dif_pos (by simp)] at h
        obtain ⟨d, rfl, hd⟩ := (ih m.length (by simp) m rfl).mp h
        exact ⟨b :: d, rfl, by simpa using ⟨hb, hd⟩⟩
      · exact ⟨[], by simpa using (List.mem_singleton.mp h).symm, by simp⟩
    · rintro ⟨d, rfl, hd⟩
      cases d with
      | nil => right; simp
      | cons b d =>
        left
        refine ⟨d ++ r, (mem_cls_ascii p hp _ _).mpr ⟨b, rfl, hd b (by simp)⟩, ?_⟩
        rw [dif_pos (by simp)]
        exact (ih (d ++ r).length (by simp) _ rfl).mpr ⟨d, rfl, fun x hx => hd x (by simp [hx])⟩

theorem isHexUpper_iff (b : UInt8) : isHexUpper b.toNat = true ↔ HexDigit b := by
  simp [isHexUpper, HexDigit]

theorem isWord_iff (b : UInt8) : isWord b.toNat = true ↔ WordByte b := by
  have : b.toNat = 0x5F ↔ b = 0x5F := by
    rw [show (0x5F : Nat) = (0x5F : UInt8).toNat from rfl, UInt8.toNat_inj]
  simp [isWord, WordByte, this, or_assoc]

theorem isReSpace_iff (b : UInt8) : isReSpace b.toNat = true ↔ Blank b := by
  have h : ∀ c : UInt8, b.toNat = c.toNat ↔ b = c := fun c => UInt8.toNat_inj
  have h1 := h 0x09; have h2 := h 0x0a; have h3 := h 0x0c; have h4 := h 0x0d; have h5 := h 0x20
  simp only [show (0x09 : UInt8).toNat = 0x09 from rfl, show (0x0a : UInt8).toNat = 0x0a from rfl,
    show (0x0c : UInt8).toNat = 0x0c from rfl, show (0x0d : UInt8).toNat = 0x0d from rfl,
    show (0x20 : UInt8).toNat = 0x20 from rfl] at h1 h2 h3 h4 h5
  simp [isReSpace, Blank, h1, h2, h3, h4, h5, or_assoc]

theorem mem_hex (s r : GoString) :
    r ∈ (Regex.cls isHexUpper).run s ↔ ∃ b : UInt8, s = b :: r ∧ HexDigit b := by
  rw [mem_cls_ascii _ (by intro r; simp [isHexUpper]; omega)]
  simp only [isHexUpper_iff]

theorem mem_reCodePoint (s r : GoString) :
    r ∈ reCodePoint.run s ↔ ∃ d, s = d ++ r ∧ CodePointText d := by
  unfold reCodePoint
  simp only [Regex.upToSucc, mem_cat, mem_opt, mem_hex]
  constructor
  · rintro ⟨_, ⟨a, rfl, ha⟩, _, ⟨b, rfl, hb⟩, _, ⟨c, rfl, hc⟩, _, ⟨d, rfl, hd⟩, h⟩
    rcases h with ⟨_, ⟨e, rfl, he⟩, ⟨f, rfl, hf⟩ | rfl⟩ | rfl
    · exact ⟨[a, b, c, d, e, f], rfl, by simp [CodePointText, *]⟩
    · exact ⟨[a, b, c, d, e], rfl, by simp [CodePointText, *]⟩
    · exact ⟨[a, b, c, d], rfl, by simp [CodePointText, *]⟩
  · rintro ⟨d, rfl, h1, h2, h3⟩
    match d, h1, h2, h3 with
    | [a, b, c, d], _, _, h3 =>
      simp only [List.mem_cons, List.not_mem_nil, or_false, forall_eq_or_imp, forall_eq] at h3
      exact ⟨_, ⟨a, rfl, h3.1⟩, _, ⟨b, rfl, h3.2.1⟩, _, ⟨c, rfl, h3.2.2.1⟩, _, ⟨d, rfl, h3.2.2.2⟩, Or.inr rfl⟩
    | [a, b, c, d, e], _, _, h3 =>
      simp only [List.mem_cons, List.not_mem_nil, or_false, forall_eq_or_imp, forall_eq] at h3
      exact ⟨_, ⟨a, rfl, h3.1⟩, _, ⟨b, rfl, h3.2.1⟩, _, ⟨c, rfl, h3.2.2.1⟩, _, ⟨d, rfl, h3.2.2.2.1⟩,
        Or.inl ⟨_, ⟨e, rfl, h3.2.2.2.2⟩, Or.inr rfl⟩⟩
    | [a, b, c, d, e, f], _, _, h3 =>
      simp only [List.mem_cons, List.not_mem_nil, or_false, forall_eq_or_imp, forall_eq] at h3
      exact ⟨_, ⟨a, rfl, h3.1⟩, _, ⟨b, rfl, h3.2.1⟩, _, ⟨c, rfl, h3.2.2.1⟩, _, ⟨d, rfl, h3.2.2.2.1⟩,
        Or.inl ⟨_, ⟨e, rfl, h3.2.2.2.2.1⟩, Or.inl ⟨f, rfl, h3.2.2.2.2.2⟩⟩⟩

theorem mem_blanks (s r : GoString) :
    r ∈ (Regex.star (.cls isReSpace)).run s ↔ ∃ d : GoString, s = d ++ r ∧ ∀ b ∈ d, Blank b := by
  rw [mem_starRun_cls _ (by intro r; simp [isReSpace]; omega)]
  simp only [isReSpace_iff]

theorem mem_blank (s r : GoString) :
    r ∈ (Regex.cls isReSpace).run s ↔ ∃ b : UInt8, s = b :: r ∧ Blank b := by
  rw [mem_cls_ascii _ (by intro r; simp [isReSpace]; omega)]
  simp only [isReSpace_iff]

theorem mem_reSemicolon (s r : GoString) :
    r ∈ reSemicolon.run s ↔ ∃ s1 s2 : GoString, s = s1 ++ [0x3B] ++ s2 ++ r ∧ (∀ b ∈ s1, Blank b) ∧ ∀ b ∈ s2, Blank b := by
  have hs : (fun x : Nat => x == 0x3b) = (· == (0x3b : UInt8).toNat) := rfl
  unfold reSemicolon
  rw [hs]
  simp only [mem_cat, mem_blanks, mem_byte 0x3b (by decide)]
  constructor
  · rintro ⟨_, ⟨s1, rfl, h1⟩, _, rfl, s2, rfl, h2⟩
    exact ⟨s1, s2, by simp, h1, h2⟩
  · rintro ⟨s1, s2, rfl, h1, h2⟩
    exact ⟨_, ⟨s1, by simp only [List.append_assoc]; rfl, h1⟩, _, rfl, s2, rfl, h2⟩

theorem mem_reHash (s r : GoString) :
    r ∈ reHash.run s ↔ ∃ (s3 : GoString) (blank : UInt8), s = s3 ++ [0x23, blank] ++ r ∧ (∀ b ∈ s3, Blank b) ∧ Blank blank := by
  have hs : (fun x : Nat => x == 0x23) = (· == (0x23 : UInt8).toNat) := rfl
  unfold reHash
  rw [hs]
  simp only [mem_cat, mem_blanks, mem_blank, mem_byte 0x23 (by decide)]
  constructor
  · rintro ⟨_, ⟨s1, rfl, h1⟩, _, rfl, b, rfl, h2⟩
    exact ⟨s1, b, by simp, h1, h2⟩
  · rintro ⟨s1, b, rfl, h1, h2⟩
    exact ⟨_, ⟨s1, by simp only [List.append_assoc]; rfl, h1⟩, _, rfl, b, rfl, h2⟩

theorem mem_reWord (s r : GoString) :
    r ∈ reWord.run s ↔ ∃ d : GoString, s = d ++ r ∧ d ≠ [] ∧ ∀ b ∈ d, WordByte b := by
  have hp : ∀ r, isWord r = true → r < 0x80 := by intro r; simp [isWord]; omega
  unfold reWord
  simp only [mem_cat, mem_starRun_cls _ hp, mem_cls_ascii _ hp, isWord_iff]
  constructor
  · rintro ⟨_, ⟨b, rfl, hb⟩, d, rfl, hd⟩
    exact ⟨b :: d, rfl, by simp, by simpa using ⟨hb, hd⟩⟩
  · rintro ⟨d, rfl, hne, hd⟩
    cases d with
    | nil => exact absurd rfl hne
    | cons b d => exact ⟨_, ⟨b, rfl, hd b (by simp)⟩, d, rfl, fun x hx => hd x (by simp [hx])⟩

theorem mem_reDots (s r : GoString) : r ∈ reDots.run s ↔ s = [0x2E, 0x2E] ++ r := by
  have hs : (fun x : Nat => x == 0x2e) = (· == (0x2e : UInt8).toNat) := rfl
  unfold reDots
  rw [hs]
  simp only [mem_cat, mem_byte 0x2e (by decide)]
  constructor
  · rintro ⟨_, rfl, rfl⟩; rfl
  · rintro rfl; exact ⟨_, rfl, rfl⟩

theorem cls_notNewline_mem (s r : GoString) (h : r ∈ (Regex.cls notNewline).run s) :
    ∃ d : GoString, s = d ++ r ∧ d ≠ [] ∧ 0x0A ∉ d := by
  cases s with
  | nil => simp [Regex.run] at h
  | cons b t =>
    rw [Regex.run] at h
    split at h
    · rename_i hp
      simp only [List.mem_singleton] at h
      subst h
      refine ⟨(b :: t).take (decodeRune (b :: t)).2, (List.take_append_drop _ _).symm, ?_, ?_⟩
      · have := decodeRune_size (b :: t) (by simp)
        rw [Ne, List.take_eq_nil_iff]
        simp; omega
      · intro hm
        rcases decodeRune_tail b t _ hm with hb | hb
        · subst hb
          simp [decodeRune, notNewline] at hp
        · simp at hb
    · simp at h

theorem star_notNewline_mem (s r : GoString) (h : r ∈ (Regex.star (.cls notNewline)).run s) :
    ∃ d : GoString, s = d ++ r ∧ 0x0A ∉ d := by
  rw [Regex.run] at h
  induction hn : s.length using Nat.strongRecOn generalizing s with
  | ind n ih =>
    subst hn
    rw [starRun, List.mem_append, List.mem_flatMap] at h
    rcases h with ⟨m, hm, h⟩ | h
    · split at h
      · rename_i hlt
        obtain ⟨d, rfl, _, hd⟩ := cls_notNewline_mem s m hm
        obtain ⟨d', rfl, hd'⟩ := ih _ hlt m h rfl
        exact ⟨d ++ d', by simp, by simp [hd, hd']⟩
      · simp at h
    · exact ⟨[], by simpa using (List.mem_singleton.mp h).symm, by simp⟩

/-- `(.+)$` -/
theorem mem_rest (s : GoString) : [] ∈ reLocGroup.run s ↔ s ≠ [] ∧ 0x0A ∉ s := by
  constructor
  · intro h
    unfold reLocGroup at h
    rw [mem_cat] at h
    obtain ⟨m, h1, h2⟩ := h
    obtain ⟨d, rfl, hne, hd⟩ := cls_notNewline_mem _ _ h1
    obtain ⟨d', hm, hd'⟩ := star_notNewline_mem _ _ h2
    rw [List.append_nil] at hm
    subst hm
    exact ⟨by simp [hne], by simp [hd, hd']⟩
  · rintro ⟨hne, hnl⟩
    cases s with
    | nil => exact absurd rfl hne
    | cons b t =>
      have hb : b ≠ 0x0a := by rintro rfl; simp at hnl
      obtain ⟨h1, h2⟩ := head_line_step b t hb
      obtain ⟨tl, hh⟩ := head_cat h1 (head_star_line _)
      unfold reLocGroup
      rw [hh, h2]
      have : (b :: t).dropWhile (· != 0x0a) = [] := by
        have h1 := List.takeWhile_append_dropWhile (p := (· != (0x0a : UInt8))) (l := b :: t)
        rw [takeWhile_self (l := b :: t)] at h1
        · simpa using h1
        · intro x hx
          simp only [bne_iff_ne, ne_eq]
          rintro rfl
          exact hnl hx
      rw [this]
      simp

theorem before_append (d r : GoString) : before (d ++ r) r = d := by
  simp [before]

/-- The members of the list of matches. -/
theorem mem_propertyMatches (line g1 g3 g4 g5 : GoString) :
    (g1, g3, g4, g5) ∈ propertyMatches line ↔
      ∃ range s1 s2 s3 : GoString, ∃ blank : UInt8,
        line = range ++ s1 ++ [0x3B] ++ s2 ++ g4 ++ s3 ++ [0x23, blank] ++ g5 ∧
        (range = g1 ∧ g3 = [] ∨ range = g1 ++ [0x2E, 0x2E] ++ g3 ∧ CodePointText g3) ∧
        CodePointText g1 ∧
        (∀ b ∈ s1, Blank b) ∧ (∀ b ∈ s2, Blank b) ∧ (∀ b ∈ s3, Blank b) ∧ Blank blank ∧
        g4 ≠ [] ∧ (∀ b ∈ g4, WordByte b) ∧ g5 ≠ [] ∧ 0x0A ∉ g5 := by
  unfold propertyMatches
  simp only [List.mem_flatMap, List.mem_append, List.mem_map, List.mem_filter, mem_reCodePoint, mem_reDots,
    mem_reSemicolon, mem_reWord, mem_reHash, List.mem_singleton, List.isEmpty_iff]
  constructor
  · rintro ⟨a, ⟨d1, rfl, hd1⟩, ⟨tt, b⟩, htb, c, ⟨s1, s2, hb, h1, h2⟩, d, ⟨g, rfl, hg1, hg2⟩, e, ⟨s3, bl, rfl, h3, h4⟩, r,
      ⟨hr, rfl⟩, heq⟩
    dsimp only at hb heq
    subst hb
    rw [mem_rest] at hr
    simp only [before_append, Prod.mk.injEq] at heq
    obtain ⟨rfl, rfl, rfl, he⟩ := heq
    rw [show before e [] = e by simpa using before_append e []] at he
    subst he
    rcases htb with ⟨m, rfl, b', ⟨d3, rfl, hd3⟩, hbb⟩ | htb
    · rw [before_append, Prod.mk.injEq] at hbb
      obtain ⟨rfl, rfl⟩ := hbb
      exact ⟨_, s1, s2, s3, bl, by simp, Or.inr ⟨rfl, hd3⟩, hd1, h1, h2, h3, h4, hg1, hg2, hr.1, hr.2⟩
    · rw [Prod.mk.injEq] at htb
      obtain ⟨rfl, rfl⟩ := htb
      exact ⟨_, s1, s2, s3, bl, by simp, Or.inl ⟨rfl, rfl⟩, hd1, h1, h2, h3, h4, hg1, hg2, hr.1, hr.2⟩
  · rintro ⟨range, s1, s2, s3, bl, rfl, hrange, hd1, h1, h2, h3, h4, hg1, hg2, hr1, hr2⟩
    rcases hrange with ⟨rfl, rfl⟩ | ⟨rfl, hd3⟩
    · refine ⟨_, ⟨range, by simp only [List.append_assoc]; rfl, hd1⟩, ([], _), Or.inr rfl, _,
        ⟨s1, s2, by simp only [List.append_assoc]; rfl, h1, h2⟩, _, ⟨g4, by rfl, hg1, hg2⟩, _,
        ⟨s3, bl, by simp only [List.append_assoc], h3, h4⟩, [], ⟨(mem_rest g5).mpr ⟨hr1, hr2⟩, rfl⟩, ?_⟩
      simp only [List.append_assoc]
      simp only [before_append]
      rw [show before g5 [] = g5 by simpa using before_append g5 []]
    · refine ⟨_, ⟨g1, by simp only [List.append_assoc]; rfl, hd1⟩, (g3, _),
        Or.inl ⟨_, rfl, _, ⟨g3, rfl, hd3⟩, by rw [before_append]⟩, _,
        ⟨s1, s2, by simp only [List.append_assoc]; rfl, h1, h2⟩, _, ⟨g4, by rfl, hg1, hg2⟩, _,
        ⟨s3, bl, by simp only [List.append_assoc], h3, h4⟩, [], ⟨(mem_rest g5).mpr ⟨hr1, hr2⟩, rfl⟩, ?_⟩
      simp only [List.append_assoc]
      simp only [before_append]
      rw [show before g5 [] = g5 by simpa using before_append g5 []]

/-- A text is cut in one way only before the first byte without property `P`. -/
theorem span_unique (P : UInt8 → Prop) {a a' x x' : GoString} (h : a ++ x = a' ++ x') (ha : ∀ b ∈ a, P b)
    (ha' : ∀ b ∈ a', P b) (hx : ∀ b, x.head? = some b → ¬ P b) (hx' : ∀ b, x'.head? = some b → ¬ P b) :
    a = a' ∧ x = x' := by
  induction a generalizing a' with
  | nil =>
    cases a' with
    | nil => exact ⟨rfl, h⟩
    | cons b a' =>
      simp only [List.nil_append] at h
      subst h
      exact absurd (ha' b (by simp)) (hx b rfl)
  | cons b a ih =>
    cases a' with
    | nil =>
      simp only [List.nil_append] at h
      subst h
      exact absurd (ha b (by simp)) (hx' b rfl)
    | cons b' a' =>
      simp only [List.cons_append, List.cons.injEq] at h
      obtain ⟨rfl, h⟩ := h
      obtain ⟨rfl, rfl⟩ := ih h (fun c hc => ha c (by simp [hc])) (fun c hc => ha' c (by simp [hc]))
      exact ⟨rfl, rfl⟩

theorem Spec.Blank.facts {b : UInt8} (h : Blank b) : b ≠ 0x3B ∧ b ≠ 0x23 ∧ ¬ WordByte b ∧ ¬ HexDigit b ∧ b ≠ 0x2E := by
  simp only [Blank, List.mem_cons, List.not_mem_nil, or_false] at h
  rcases h with rfl | rfl | rfl | rfl | rfl <;> simp [WordByte, HexDigit]

theorem Spec.WordByte.facts {b : UInt8} (h : WordByte b) : b ≠ 0x23 ∧ ¬ Blank b :=
  ⟨by rintro rfl; simp [WordByte] at h, fun hb => hb.facts.2.2.1 h⟩

theorem Spec.HexDigit.facts {b : UInt8} (h : HexDigit b) : b ≠ 0x3B ∧ b ≠ 0x2E ∧ ¬ Blank b :=
  ⟨by rintro rfl; simp [HexDigit] at h, by rintro rfl; simp [HexDigit] at h, fun hb => hb.facts.2.2.2.1 h⟩

theorem Spec.PropertyLine.unique {line from1 to1 p1 c1 from2 to2 p2 c2 : GoString}
    (h1 : PropertyLine line from1 to1 p1 c1) (h2 : PropertyLine line from2 to2 p2 c2) :
    from1 = from2 ∧ to1 = to2 ∧ p1 = p2 ∧ c1 = c2 := by
  obtain ⟨r, s1, s2, s3, bl, e1, hr, hf, ht, hs1, hs2, hs3, hbl, hp1, hp2, hc1, hc2⟩ := h1
  obtain ⟨r', s1', s2', s3', bl', e2, hr', hf', ht', hs1', hs2', hs3', hbl', hp1', hp2', hc1', hc2'⟩ := h2
  have hrange : ∀ {r f t : GoString}, (r = f ∧ t = f ∨ r = f ++ [0x2E, 0x2E] ++ t) → CodePointText f →
      CodePointText t → ∀ b ∈ r, ¬ Blank b ∧ b ≠ 0x3B := by
    intro r f t hr hf ht b hb
    have hd : HexDigit b ∨ b = 0x2E := by
      rcases hr with ⟨rfl, rfl⟩ | rfl
      · exact Or.inl (hf.2.2 b hb)
      · simp only [List.mem_append, List.mem_cons, List.not_mem_nil, or_false, or_self] at hb
        rcases hb with (hb | hb) | hb
        · exact Or.inl (hf.2.2 b hb)
        · exact Or.inr hb
        · exact Or.inl (ht.2.2 b hb)
    rcases hd with hd | rfl
    · exact ⟨hd.facts.2.2, hd.facts.1⟩
    · simp [Blank]
  have hR := hrange hr hf ht
  have hR' := hrange hr' hf' ht'
  rw [e1] at e2
  simp only [List.append_assoc] at e2
  -- the range
  obtain ⟨hrr, e3⟩ := span_unique (fun b => ¬ Blank b ∧ b ≠ 0x3B) e2 hR hR'
    (by
      cases s1 with
      | nil => simp
      | cons b t => simp only [List.cons_append, List.head?_cons, Option.some.injEq]; rintro _ rfl ⟨h, _⟩; exact h (hs1 _ (by simp)))
    (by
      cases s1' with
      | nil => simp
      | cons b t => simp only [List.cons_append, List.head?_cons, Option.some.injEq]; rintro _ rfl ⟨h, _⟩; exact h (hs1' _ (by simp)))
  obtain ⟨_, e4⟩ := span_unique Blank e3 hs1 hs1' (by simp [Blank]) (by simp [Blank])
  simp only [List.cons_append, List.nil_append, List.cons.injEq, true_and] at e4
  have hword : ∀ {p x : GoString}, p ≠ [] → (∀ b ∈ p, WordByte b) → ∀ b, (p ++ x).head? = some b → ¬ Blank b := by
    intro p x h1 h2 b hb
    cases p with
    | nil => exact absurd rfl h1
    | cons c p =>
      simp only [List.cons_append, List.head?_cons, Option.some.injEq] at hb
      subst hb
      exact (h2 c (by simp)).facts.2
  obtain ⟨_, e5⟩ := span_unique Blank e4 hs2 hs2' (hword hp1 hp2) (hword hp1' hp2')
  have hafter : ∀ {s x : GoString}, (∀ b ∈ s, Blank b) → ∀ b, (s ++ 0x23 :: x).head? = some b → ¬ WordByte b := by
    intro s x h b hb
    cases s with
    | nil =>
      simp only [List.nil_append, List.head?_cons, Option.some.injEq] at hb
      subst hb
      simp [WordByte]
    | cons c s =>
      simp only [List.cons_append, List.head?_cons, Option.some.injEq] at hb
      subst hb
      exact (h c (by simp)).facts.2.2.1
  obtain ⟨hpp, e6⟩ := span_unique WordByte e5 hp2 hp2' (hafter hs3) (hafter hs3')
  obtain ⟨_, e7⟩ := span_unique Blank e6 hs3 hs3' (by simp [Blank]) (by simp [Blank])
  simp only [List.cons.injEq, true_and] at e7
  subst hrr
  have hft : from1 = from2 ∧ to1 = to2 := by
    have key : ∀ {f t f' t' : GoString}, r = f ∧ t = f ∨ r = f ++ [0x2E, 0x2E] ++ t →
        r = f' ∧ t' = f' ∨ r = f' ++ [0x2E, 0x2E] ++ t' → CodePointText f → CodePointText f' → f = f' ∧ t = t' := by
      intro f t f' t' h h' hf hf'
      have hnd : ∀ {f : GoString}, CodePointText f → ∀ b ∈ f, b ≠ 0x2E := fun hf b hb => (hf.2.2 b hb).facts.2.1
      have aux : ∀ {f t f' : GoString}, CodePointText f → CodePointText f' → f' = f ++ [0x2E, 0x2E] ++ t → False := by
        intro f t f' hf hf' h
        exact hnd hf' 0x2E (by rw [h]; simp) rfl
      rcases h with ⟨rfl, rfl⟩ | h <;> rcases h' with ⟨rfl, rfl⟩ | h'
      · exact ⟨rfl, rfl⟩
      · exact (aux hf' hf h').elim
      · exact (aux hf hf' h).elim
      · rw [h] at h'
        simp only [List.append_assoc] at h'
        obtain ⟨h1, h2⟩ := span_unique (· ≠ 0x2E) h' (hnd hf) (hnd hf') (by simp) (by simp)
        simpa [h1] using h2
    exact key hr hr' hf hf'
  exact ⟨hft.1, hft.2, hpp, e7.2⟩

/-- `parseProperty` recognises exactly the property lines. -/
theorem parseProperty_some (line : GoString) (p : PropertyText) :
    parseProperty line = some p ↔ PropertyLine line p.from_ p.to p.property p.comment := by
  have toLine : ∀ g1 g3 g4 g5, (g1, g3, g4, g5) ∈ propertyMatches line →
      PropertyLine line g1 (if g3 = [] then g1 else g3) g4 g5 := by
    intro g1 g3 g4 g5 h
    obtain ⟨r, s1, s2, s3, bl, e, hr, h'⟩ := (mem_propertyMatches ..).mp h
    rcases hr with ⟨rfl, rfl⟩ | ⟨rfl, h3⟩
    · rw [if_pos rfl]
      exact ⟨r, s1, s2, s3, bl, e, Or.inl ⟨rfl, rfl⟩, h'.1, h'.1, h'.2⟩
    · have : g3 ≠ [] := by rintro rfl; simp [CodePointText] at h3
      rw [if_neg this]
      exact ⟨_, s1, s2, s3, bl, e, Or.inr rfl, h'.1, h3, h'.2⟩
  unfold parseProperty
  constructor
  · intro h
    split at h
    · cases h
    · rename_i g1 g3 g4 g5 hh
      cases h
      exact toLine g1 g3 g4 g5 (List.mem_of_head? hh)
  · intro h
    obtain ⟨r, s1, s2, s3, bl, e, hr, hf, ht, hrest⟩ := id h
    have hmem : ∃ g3, (p.from_, g3, p.property, p.comment) ∈ propertyMatches line := by
      rcases hr with ⟨rfl, hto⟩ | rfl
      · exact ⟨[], (mem_propertyMatches ..).mpr ⟨_, s1, s2, s3, bl, e, Or.inl ⟨rfl, rfl⟩, hf, hrest⟩⟩
      · exact ⟨p.to, (mem_propertyMatches ..).mpr ⟨_, s1, s2, s3, bl, e, Or.inr ⟨rfl, ht⟩, hf, hrest⟩⟩
    obtain ⟨g3, hmem⟩ := hmem
    cases hm : propertyMatches line with
    | nil => rw [hm] at hmem; simp at hmem
    | cons x l =>
      obtain ⟨y1, y3, y4, y5⟩ := x
      have hx := toLine y1 y3 y4 y5 (by rw [hm]; simp)
      obtain ⟨h1, h2, h3, h4⟩ := hx.unique h
      rw [List.head?_cons]
      dsimp only
      rw [h2, h1, h3, h4]

theorem parseProperty_none (line : GoString) :
    parseProperty line = none ↔ ¬ ∃ f t p c, PropertyLine line f t p c := by
  constructor
  · rintro h ⟨f, t, p, c, hl⟩
    have := (parseProperty_some line ⟨f, t, p, c⟩).mpr hl
    rw [h] at this
    cases this
  · intro h
    cases hp : parseProperty line with
    | none => rfl
    | some q => exact absurd ⟨_, _, _, _, (parseProperty_some line q).mp hp⟩ h

end GoTable
