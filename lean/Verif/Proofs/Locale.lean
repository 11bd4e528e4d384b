import Verif.Model.Locale
import Verif.Spec.Locale
import Verif.Proofs.Sgr
import Mathlib.Tactic.Tauto
/-! Locale names. -/

namespace GoTable
open Spec

theorem mem_takeWhile_imp {p : UInt8 → Bool} {a : UInt8} {l : GoString} (h : a ∈ l.takeWhile p) :
    p a = true := by
  induction l with
  | nil => simp at h
  | cons b l ih =>
    rw [List.takeWhile_cons] at h
    split at h
    · rcases List.mem_cons.mp h with rfl | h
      · assumption
      · exact ih h
    · simp at h

theorem takeWhile_self {p : UInt8 → Bool} {l : GoString} (h : ∀ a ∈ l, p a = true) :
    l.takeWhile p = l := by
  have := List.takeWhile_append_of_pos (l₂ := []) h
  simpa using this

theorem mem_cls_ascii (p : Nat → Bool) (hp : ∀ r, p r = true → r < 0x80) (s r : GoString) :
    r ∈ (Regex.cls p).run s ↔ ∃ b : UInt8, s = b :: r ∧ p b.toNat = true := by
  cases s with
  | nil => simp [Regex.run]
  | cons b t =>
    constructor
    · intro h
      rw [Regex.run] at h
      split at h
      · rename_i hpd
        obtain ⟨_, h2⟩ := decodeRune_lt_80 b t (hp _ hpd)
        rw [h2] at h hpd
        simp only [List.mem_singleton] at h
        exact ⟨b, by rw [h]; rfl, hpd⟩
      · simp at h
    · rintro ⟨c, hc, hpc⟩
      obtain ⟨rfl, rfl⟩ := List.cons.inj hc
      rw [run_cls_ascii p b t (hp _ hpc), if_pos hpc]
      simp

theorem isLowerAZ_iff (b : UInt8) : isLowerAZ b.toNat = true ↔ lowerLetter b := by
  simp [isLowerAZ, lowerLetter]

theorem isUpperAZ_iff (b : UInt8) : isUpperAZ b.toNat = true ↔ upperLetter b := by
  simp [isUpperAZ, upperLetter]

theorem mem_lower (s r : GoString) :
    r ∈ (Regex.cls isLowerAZ).run s ↔ ∃ b : UInt8, s = b :: r ∧ lowerLetter b := by
  rw [mem_cls_ascii _ (by intro r; simp [isLowerAZ]; omega)]
  simp only [isLowerAZ_iff]

theorem mem_upper (s r : GoString) :
    r ∈ (Regex.cls isUpperAZ).run s ↔ ∃ b : UInt8, s = b :: r ∧ upperLetter b := by
  rw [mem_cls_ascii _ (by intro r; simp [isUpperAZ]; omega)]
  simp only [isUpperAZ_iff]

theorem mem_byte (c : UInt8) (hc : c.toNat < 0x80) (s r : GoString) :
    r ∈ (Regex.cls (· == c.toNat)).run s ↔ s = c :: r := by
  rw [mem_cls_ascii _ (by intro r; simp; omega)]
  simp only [beq_iff_eq, UInt8.toNat_inj]
  constructor
  · rintro ⟨b, rfl, rfl⟩; rfl
  · intro h; exact ⟨c, h, rfl⟩

theorem mem_cat (a b : Regex) (s r : GoString) :
    r ∈ (Regex.cat a b).run s ↔ ∃ m, m ∈ a.run s ∧ r ∈ b.run m := by
  rw [Regex.run, List.mem_flatMap]

theorem mem_opt (a : Regex) (s r : GoString) : r ∈ (Regex.opt a).run s ↔ r ∈ a.run s ∨ r = s := by
  rw [Regex.run, List.mem_append, List.mem_singleton]

theorem mem_reLocPrefix (s r : GoString) :
    r ∈ reLocPrefix.run s ↔ ∃ tag, LanguageTag tag ∧ s = tag ++ 0x2e :: r := by
  have hu : (fun x : Nat => x == 0x5f) = (· == (0x5f : UInt8).toNat) := rfl
  have hd : (fun x : Nat => x == 0x2e) = (· == (0x2e : UInt8).toNat) := rfl
  unfold reLocPrefix
  rw [hu, hd]
  simp only [mem_cat, mem_opt, mem_lower, mem_upper, mem_byte 0x5f (by decide), mem_byte 0x2e (by decide)]
  constructor
  · rintro ⟨m1, ⟨a, rfl, ha⟩, m2, ⟨b, rfl, hb⟩, m3, h3, m4, h4, rfl⟩
    have h4' : ∃ country : GoString, m3 = country ++ 0x2e :: r ∧
        (country = [] ∨ ∃ x y, country = [0x5f, x, y] ∧ upperLetter x ∧ upperLetter y) := by
      rcases h4 with ⟨m5, rfl, m6, ⟨x, rfl, hx⟩, y, rfl, hy⟩ | rfl
      · exact ⟨[0x5f, x, y], rfl, Or.inr ⟨x, y, rfl, hx, hy⟩⟩
      · exact ⟨[], rfl, Or.inl rfl⟩
    obtain ⟨country, rfl, hc⟩ := h4'
    rcases h3 with ⟨c, rfl, hc'⟩ | rfl
    · exact ⟨[a, b, c] ++ country, ⟨[a, b, c], country, rfl, Or.inr rfl, by simp [ha, hb, hc'], hc⟩, by simp⟩
    · exact ⟨[a, b] ++ country, ⟨[a, b], country, rfl, Or.inl rfl, by simp [ha, hb], hc⟩, by simp⟩
  · rintro ⟨_, ⟨lang, country, rfl, hlen, hlow, hc⟩, rfl⟩
    have h4 : ∃ m4, ((∃ m, country ++ 0x2e :: r = 0x5f :: m ∧ ∃ m_1, (∃ b, m = b :: m_1 ∧ upperLetter b) ∧
          ∃ b, m_1 = b :: m4 ∧ upperLetter b) ∨ m4 = country ++ 0x2e :: r) ∧ m4 = 0x2e :: r := by
      rcases hc with rfl | ⟨x, y, rfl, hx, hy⟩
      · exact ⟨_, Or.inr rfl, rfl⟩
      · exact ⟨_, Or.inl ⟨_, rfl, _, ⟨x, rfl, hx⟩, y, rfl, hy⟩, rfl⟩
    rcases hlen with hlen | hlen
    · match lang, hlen, hlow with
      | [a, b], _, hlow =>
        exact ⟨_, ⟨a, rfl, hlow a (by simp)⟩, _, ⟨b, rfl, hlow b (by simp)⟩, _, Or.inr rfl, h4⟩
    · match lang, hlen, hlow with
      | [a, b, c], _, hlow =>
        exact ⟨_, ⟨a, rfl, hlow a (by simp)⟩, _, ⟨b, rfl, hlow b (by simp)⟩, _,
          Or.inl ⟨c, rfl, hlow c (by simp)⟩, h4⟩

theorem languageTag_no_dot {tag : GoString} (h : LanguageTag tag) : ∀ b ∈ tag, b ≠ 0x2e := by
  obtain ⟨lang, country, rfl, _, hlow, hc⟩ := h
  intro b hb
  have key : ∀ c : UInt8, lowerLetter c ∨ upperLetter c → c ≠ 0x2e := by
    rintro c h rfl
    simp [lowerLetter, upperLetter] at h
  rw [List.mem_append] at hb
  rcases hb with hb | hb
  · exact key b (Or.inl (hlow b hb))
  · rcases hc with rfl | ⟨x, y, rfl, hx, hy⟩
    · simp at hb
    · simp only [List.mem_cons, List.not_mem_nil, or_false] at hb
      rcases hb with rfl | rfl | rfl
      · decide
      · exact key _ (Or.inr hx)
      · exact key _ (Or.inr hy)

theorem after_dot {tag r : GoString} (h : ∀ b ∈ tag, b ≠ 0x2e) :
    ((tag ++ 0x2e :: r).dropWhile (· != 0x2e)).tail = r := by
  rw [List.dropWhile_append_of_pos (by simpa using h)]
  simp

/-- All bytes of an encoding but the first are outside ASCII. -/
theorem decodeRune_tail (b : UInt8) (t : GoString) :
    ∀ a ∈ (b :: t).take (decodeRune (b :: t)).2, a = b ∨ 0x80 ≤ a.toNat := by
  intro a
  unfold decodeRune
  dsimp only
  split
  · intro h; left; simpa using h
  split
  · intro h; left; simpa using h
  split
  · split
    · rename_i b1 _
      split
      · rename_i hc
        simp only [isCont, Bool.and_eq_true, decide_eq_true_eq] at hc
        intro h
        simp only [List.take_succ_cons, List.take_zero, List.mem_cons, List.not_mem_nil, or_false] at h
        rcases h with rfl | rfl
        · exact Or.inl rfl
        · exact Or.inr hc.1
      · intro h; left; simpa using h
    · intro h; left; simpa using h
  split
  · split
    · rename_i b1 b2 _
      generalize hlo : (if b.toNat = 0xE0 then 0xA0 else 0x80 : Nat) = lo
      generalize (if b.toNat = 0xED then 0x9F else 0xBF : Nat) = hi
      have hlo' : 0x80 ≤ lo := by split at hlo <;> omega
      split
      · rename_i hc
        simp only [isCont, Bool.and_eq_true, decide_eq_true_eq] at hc
        intro h
        simp only [List.take_succ_cons, List.take_zero, List.mem_cons, List.not_mem_nil, or_false] at h
        rcases h with rfl | rfl | rfl
        · exact Or.inl rfl
        · exact Or.inr (by omega)
        · exact Or.inr (by omega)
      · intro h; left; simpa using h
    · intro h; left; simpa using h
  split
  · split
    · rename_i b1 b2 b3 _
      generalize hlo : (if b.toNat = 0xF0 then 0x90 else 0x80 : Nat) = lo
      generalize (if b.toNat = 0xF4 then 0x8F else 0xBF : Nat) = hi
      have hlo' : 0x80 ≤ lo := by split at hlo <;> omega
      split
      · rename_i hc
        simp only [isCont, Bool.and_eq_true, decide_eq_true_eq] at hc
        intro h
        simp only [List.take_succ_cons, List.take_zero, List.mem_cons, List.not_mem_nil, or_false] at h
        rcases h with rfl | rfl | rfl | rfl
        · exact Or.inl rfl
        · exact Or.inr (by omega)
        · exact Or.inr (by omega)
        · exact Or.inr (by omega)
      · intro h; left; simpa using h
    · intro h; left; simpa using h
  · intro h; left; simpa using h

/-- One step over a character that is not a newline. -/
theorem head_line_step (b : UInt8) (t : GoString) (hb : b ≠ 0x0a) :
    (Regex.cls notNewline).Head (b :: t) ((b :: t).drop (decodeRune (b :: t)).2) ∧
    ((b :: t).drop (decodeRune (b :: t)).2).dropWhile (· != 0x0a) = (b :: t).dropWhile (· != 0x0a) := by
  have hne : (decodeRune (b :: t)).1 ≠ 0x0a := by
    intro he
    obtain ⟨_, h2⟩ := decodeRune_lt_80 b t (by omega)
    rw [h2] at he
    exact hb (UInt8.toNat_inj.mp he)
  refine ⟨⟨[], by rw [Regex.run]; simp [notNewline, hne]⟩, ?_⟩
  conv_rhs => rw [← List.take_append_drop (decodeRune (b :: t)).2 (b :: t)]
  rw [List.dropWhile_append_of_pos]
  intro a ha
  rcases decodeRune_tail b t a ha with rfl | ha
  · simpa using hb
  · simp only [bne_iff_ne, ne_eq]
    rintro rfl
    simp at ha

/-- `.*` stops at the first newline. -/
theorem head_star_line (s : GoString) :
    (Regex.star (.cls notNewline)).Head s (s.dropWhile (· != 0x0a)) := by
  induction hn : s.length using Nat.strongRecOn generalizing s with
  | ind n ih =>
    subst hn
    cases s with
    | nil => exact head_star_none rfl
    | cons b t =>
      by_cases hb : b = 0x0a
      · subst hb
        simpa using head_star_none (a := .cls notNewline) (s := 0x0a :: t)
          (by rw [run_cls_ascii _ _ _ (by decide)]; rfl)
      · have hsz := decodeRune_size (b :: t) (by simp)
        obtain ⟨h1, h2⟩ := head_line_step b t hb
        have hlt : ((b :: t).drop (decodeRune (b :: t)).2).length < (b :: t).length := by
          simp only [List.length_drop, List.length_cons] at *; omega
        refine head_star h1 hlt ?_
        rw [← h2]
        exact ih _ hlt _ rfl

theorem head?_flatMap_same {α β : Type} (f : α → List β) (m : α) (l : List α) (hne : l ≠ [])
    (h : ∀ x ∈ l, x = m) (hf : f m ≠ []) : (l.flatMap f).head? = (f m).head? := by
  cases l with
  | nil => exact absurd rfl hne
  | cons x l =>
    obtain rfl := h x (by simp)
    rw [List.flatMap_cons, List.head?_append]
    cases hfm : f x with
    | nil => exact absurd hfm hf
    | cons y l => rfl

theorem group_run (m : GoString) :
    ((reLocGroup.run m).map fun r => m.take (m.length - r.length)).head? =
      if m.takeWhile (· != 0x0a) = [] then none else some (m.takeWhile (· != 0x0a)) := by
  have htd : m.takeWhile (· != 0x0a) ++ m.dropWhile (· != 0x0a) = m := List.takeWhile_append_dropWhile
  by_cases h : m.takeWhile (· != 0x0a) = []
  · rw [if_pos h]
    have : reLocGroup.run m = [] := by
      unfold reLocGroup
      apply run_cat_none
      cases m with
      | nil => rfl
      | cons b t =>
        have : b = 0x0a := by
          by_contra hb
          simp [hb] at h
        subst this
        rw [run_cls_ascii _ _ _ (by decide)]; rfl
    rw [this]; rfl
  · rw [if_neg h]
    have hh : reLocGroup.Head m (m.dropWhile (· != 0x0a)) := by
      cases m with
      | nil => simp at h
      | cons b t =>
        have hb : b ≠ 0x0a := by
          rintro rfl
          simp at h
        obtain ⟨h1, h2⟩ := head_line_step b t hb
        unfold reLocGroup
        rw [← h2]
        exact head_cat h1 (head_star_line _)
    obtain ⟨tl, hh⟩ := hh
    rw [hh, List.map_cons, List.head?_cons]
    congr 1
    have hl : m.length = (m.takeWhile (· != 0x0a)).length + (m.dropWhile (· != 0x0a)).length := by
      rw [← List.length_append, htd]
    rw [hl, Nat.add_sub_cancel]
    exact (List.prefix_iff_eq_take.mp ⟨_, htd⟩).symm

theorem reLocSubmatch_some (locale g : GoString) :
    reLocSubmatch locale = some g ↔ NamesCharset locale g := by
  unfold reLocSubmatch
  by_cases hm : ∃ m, m ∈ reLocPrefix.run locale
  · obtain ⟨m, hm⟩ := hm
    obtain ⟨tag, htag, hloc⟩ := (mem_reLocPrefix _ _).mp hm
    have huniq : ∀ tag' m', LanguageTag tag' → locale = tag' ++ 0x2e :: m' → m' = m := by
      intro tag' m' h1 h2
      have e1 := after_dot (r := m') (languageTag_no_dot h1)
      have e2 := after_dot (r := m) (languageTag_no_dot htag)
      rw [← h2] at e1
      rw [← hloc] at e2
      rw [← e1, ← e2]
    have hall : ∀ x ∈ reLocPrefix.run locale, x = m := by
      intro x hx
      obtain ⟨tag', h1, h2⟩ := (mem_reLocPrefix _ _).mp hx
      exact huniq tag' x h1 h2
    have htd : m.takeWhile (· != 0x0a) ++ m.dropWhile (· != 0x0a) = m := List.takeWhile_append_dropWhile
    have hgr := group_run m
    have hval : ((reLocPrefix.run locale).flatMap fun m =>
        (reLocGroup.run m).map fun r => m.take (m.length - r.length)).head? =
        if m.takeWhile (· != 0x0a) = [] then none else some (m.takeWhile (· != 0x0a)) := by
      by_cases hf : (reLocGroup.run m).map (fun r => m.take (m.length - r.length)) = []
      · rw [← hgr, hf]
        rw [List.flatMap_eq_nil_iff.mpr]
        intro x hx
        rw [hall x hx]; exact hf
      · rw [← hgr]
        exact head?_flatMap_same (fun m => (reLocGroup.run m).map fun r => m.take (m.length - r.length)) m _
          (List.ne_nil_of_mem hm) hall hf
    rw [hval]
    constructor
    · intro h
      split at h
      · simp at h
      · rename_i hne
        cases h
        refine ⟨tag, m.dropWhile (· != 0x0a), htag, by rw [htd]; exact hloc, hne, ?_, ?_⟩
        · intro hmem
          have := mem_takeWhile_imp hmem
          simp at this
        · cases hd : m.dropWhile (· != 0x0a) with
          | nil => exact Or.inl rfl
          | cons b t =>
            right
            have := List.head?_dropWhile_not (· != 0x0a) m
            rw [hd] at this
            simp only [List.head?_cons] at this
            refine ⟨t, ?_⟩
            simp at this
            rw [this]
    · rintro ⟨tag', rest, h1, h2, h3, h4, h5⟩
      have hm' := huniq _ _ h1 h2
      have htk : m.takeWhile (· != 0x0a) = g := by
        rw [← hm', List.takeWhile_append_of_pos (by intro a ha; simp; rintro rfl; exact h4 ha)]
        rcases h5 with rfl | ⟨t, rfl⟩ <;> simp
      rw [htk, if_neg h3]
  · have hnil : reLocPrefix.run locale = [] := by
      rw [List.eq_nil_iff_forall_not_mem]
      intro x hx; exact hm ⟨x, hx⟩
    rw [hnil]
    simp only [List.flatMap_nil, List.head?_nil, reduceCtorEq, false_iff]
    rintro ⟨tag, rest, h1, h2, _⟩
    exact hm ⟨_, (mem_reLocPrefix _ _).mpr ⟨tag, h1, h2⟩⟩

/-- The charset the code works with. -/
def codeCharset (toLower : GoString → GoString) (locale : GoString) : GoString :=
  match reLocSubmatch locale with
  | some g => toLower g
  | none => toLower locale

theorem charsetOf_iff (toLower : GoString → GoString) (locale c : GoString) :
    CharsetOf toLower locale c ↔ c = codeCharset toLower locale := by
  unfold CharsetOf codeCharset
  simp only [← reLocSubmatch_some]
  cases h : reLocSubmatch locale with
  | none => simp
  | some g => simp

theorem beforeAt_iff (c b : GoString) : BeforeAt c b ↔ b = c.takeWhile (· != 0x40) := by
  have htd : c.takeWhile (· != 0x40) ++ c.dropWhile (· != 0x40) = c := List.takeWhile_append_dropWhile
  constructor
  · rintro ⟨h1, h2⟩
    have hp : ∀ a ∈ b, (a != 0x40) = true := by intro a ha; simp; rintro rfl; exact h1 ha
    rcases h2 with rfl | ⟨m, rfl⟩
    · exact (takeWhile_self hp).symm
    · rw [List.takeWhile_append_of_pos hp]; simp
  · rintro rfl
    refine ⟨fun hmem => by have := mem_takeWhile_imp hmem; simp at this, ?_⟩
    cases hd : c.dropWhile (· != 0x40) with
    | nil => rw [hd, List.append_nil] at htd; exact Or.inl htd.symm
    | cons x t =>
      right
      have := List.head?_dropWhile_not (· != 0x40) c
      rw [hd] at this
      simp at this
      subst this
      exact ⟨t, by rw [← hd, htd]⟩

theorem lookup_gt (l : List (GoString × Nat)) (h : ∀ p ∈ l, p.2 > 1) (c : GoString) :
    (match l.lookup c with | some m => m | none => 1) > 1 ↔ c ∈ l.map Prod.fst := by
  induction l with
  | nil => simp
  | cons p l ih =>
    obtain ⟨k, v⟩ := p
    rw [List.lookup_cons]
    by_cases hk : c = k
    · subst hk
      simpa using h (c, v) (by simp)
    · rw [show (c == k) = false by simpa using hk]
      dsimp only
      rw [ih (fun p hp => h p (List.mem_cons_of_mem _ hp))]
      simp [hk]

theorem mblen_lookup (c : GoString) :
    (match mblenTable.lookup c with | some m => m | none => 1) > 1 ↔ c ∈ multibyteCharsets :=
  lookup_gt mblenTable (by decide +kernel) c

theorem multibyte_ne_nil : ∀ c ∈ multibyteCharsets, c ≠ [] := by decide +kernel

theorem isPrefixOf_iff (p s : GoString) : p.isPrefixOf s = true ↔ ∃ t, s = p ++ t := by
  rw [List.isPrefixOf_iff_prefix]
  exact ⟨fun ⟨t, h⟩ => ⟨t, h.symm⟩, fun ⟨t, h⟩ => ⟨t, h.symm⟩⟩

theorem isSuffixOf_iff (p s : GoString) : p.isSuffixOf s = true ↔ ∃ t, s = t ++ p := by
  rw [List.isSuffixOf_iff_suffix]
  exact ⟨fun ⟨t, h⟩ => ⟨t, h.symm⟩, fun ⟨t, h⟩ => ⟨t, h.symm⟩⟩

theorem isEastAsianLocale_cases (lower : GoString → GoString) (locale : GoString) :
    ∃ r, isEastAsianLocale lower locale = some r ∧
      (r = true ↔ ∃ charset base, CharsetOf lower locale charset ∧ BeforeAt charset base ∧
        (¬ ∃ t, charset = t ++ lit "@cjk_narrow") ∧ base ∈ multibyteCharsets ∧
        ((∃ t, base = lit "u" ++ t) → CJKLanguage locale)) := by
  have hspec : (∃ charset base, CharsetOf lower locale charset ∧ BeforeAt charset base ∧
        (¬ ∃ t, charset = t ++ lit "@cjk_narrow") ∧ base ∈ multibyteCharsets ∧
        ((∃ t, base = lit "u" ++ t) → CJKLanguage locale)) ↔
      (lit "@cjk_narrow").isSuffixOf (codeCharset lower locale) = false ∧
      (codeCharset lower locale).takeWhile (· != 0x40) ∈ multibyteCharsets ∧
        ((∃ t, (codeCharset lower locale).takeWhile (· != 0x40) = lit "u" ++ t) → CJKLanguage locale) := by
    simp only [charsetOf_iff, beforeAt_iff, ← isSuffixOf_iff, Bool.not_eq_true]
    constructor
    · rintro ⟨_, _, rfl, rfl, h⟩; exact h
    · intro h; exact ⟨_, _, rfl, rfl, h⟩
  rw [hspec]
  clear hspec
  change ∃ r, (if (lit "@cjk_narrow").isSuffixOf (codeCharset lower locale) then some false else
    if (match mblenTable.lookup ((codeCharset lower locale).takeWhile (· != 0x40)) with
      | some m => m | none => 1) > 1 then
      match ((codeCharset lower locale).takeWhile (· != 0x40))[0]? with
      | none => none
      | some b => some (b != 0x75 || (lit "ja").isPrefixOf locale || (lit "ko").isPrefixOf locale ||
          (lit "zh").isPrefixOf locale)
    else some false) = some r ∧ _
  generalize codeCharset lower locale = cs
  by_cases h1 : (lit "@cjk_narrow").isSuffixOf cs = true
  · rw [if_pos h1]
    exact ⟨false, rfl, by simp [h1]⟩
  rw [if_neg h1]
  generalize cs.takeWhile (· != 0x40) = base
  by_cases h2 : base ∈ multibyteCharsets
  · rw [if_pos ((mblen_lookup base).mpr h2)]
    cases base with
    | nil => exact absurd rfl (multibyte_ne_nil _ h2)
    | cons b t =>
      refine ⟨_, rfl, ?_⟩
      have hu : (∃ t', b :: t = lit "u" ++ t') ↔ b = 0x75 := by
        rw [show lit "u" = [0x75] by decide +kernel]
        constructor
        · rintro ⟨t', h⟩; exact (List.cons.inj h).1
        · rintro rfl; exact ⟨t, rfl⟩
      rw [hu]
      simp only [Bool.or_eq_true, isPrefixOf_iff, CJKLanguage, bne_iff_ne, exists_or, h1, h2, true_and]
      simp only [Bool.not_eq_true] at h1
      tauto
  · rw [if_neg (fun h => h2 ((mblen_lookup base).mp h))]
    exact ⟨false, rfl, by simp [h2]⟩

theorem plainC_iff (l : GoString) : PlainC l ↔ (l = lit "POSIX" ∨ l = lit "C") ∨
    (l.length > 1 ∧ l[0]? = some 0x43 ∧ (l[1]? = some 0x2e ∨ l[1]? = some 0x2d)) := by
  have h1 : lit "C." = [0x43, 0x2e] := by decide +kernel
  have h2 : lit "C-" = [0x43, 0x2d] := by decide +kernel
  unfold PlainC
  rw [h1, h2]
  constructor
  · rintro (h | h | ⟨t, h | h⟩)
    · exact Or.inl (Or.inr h)
    · exact Or.inl (Or.inl h)
    · subst h; right; simp
    · subst h; right; simp
  · rintro ((h | h) | ⟨h3, h4, h5⟩)
    · exact Or.inr (Or.inl h)
    · exact Or.inl h
    · match l, h3 with
      | a :: b :: t, _ =>
        simp at h4 h5
        subst h4
        rcases h5 with rfl | rfl
        · exact Or.inr (Or.inr ⟨t, Or.inl rfl⟩)
        · exact Or.inr (Or.inr ⟨t, Or.inr rfl⟩)

theorem isEastAsian_cases (lower : GoString → GoString) (a b c locale : GoString)
    (h : FirstSet a b c locale) :
    ∃ r, isEastAsian lower a b c = some r ∧ (r = true ↔ EastAsian lower locale) := by
  have hl : (let l := a; let l := if l = [] then b else l; if l = [] then c else l) = locale := by
    dsimp only
    rcases h with ⟨h1, rfl⟩ | ⟨rfl, h1, rfl⟩ | ⟨rfl, rfl, rfl⟩
    · rw [if_neg h1, if_neg h1]
    · rw [if_pos rfl, if_neg h1]
    · rw [if_pos rfl, if_pos rfl]
  unfold isEastAsian
  dsimp only at hl ⊢
  rw [hl]
  unfold EastAsian
  by_cases h1 : locale = lit "POSIX" ∨ locale = lit "C"
  · rw [if_pos h1]
    have hp : PlainC locale := (plainC_iff _).mpr (Or.inl h1)
    exact ⟨false, rfl, iff_of_false (by decide) (fun hh => hh.1 hp)⟩
  rw [if_neg h1]
  by_cases h2 : List.length locale > 1 ∧ locale[0]? = some 0x43 ∧ (locale[1]? = some 0x2e ∨ locale[1]? = some 0x2d)
  · rw [if_pos h2]
    have hp : PlainC locale := (plainC_iff _).mpr (Or.inr h2)
    exact ⟨false, rfl, iff_of_false (by decide) (fun hh => hh.1 hp)⟩
  rw [if_neg h2]
  have hp : ¬ PlainC locale := fun hp => ((plainC_iff _).mp hp).elim h1 h2
  obtain ⟨r, e, hr⟩ := isEastAsianLocale_cases lower locale
  exact ⟨r, e, hr.trans ⟨fun hh => ⟨hp, hh⟩, fun hh => hh.2⟩⟩

theorem firstSet_exists (a b c : GoString) : ∃ l, FirstSet a b c l := by
  by_cases ha : a = []
  · by_cases hb : b = []
    · exact ⟨c, Or.inr (Or.inr ⟨ha, hb, rfl⟩)⟩
    · exact ⟨b, Or.inr (Or.inl ⟨ha, hb, rfl⟩)⟩
  · exact ⟨a, Or.inl ⟨ha, rfl⟩⟩

end GoTable
