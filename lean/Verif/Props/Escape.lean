import Verif.Proofs.Sgr
import Verif.Proofs.U16
import Verif.Spec.Calls
/-!
# Properties of visual widths: C11, C12, C13, C14, C15
-/

namespace GoTable
open Spec

/-! ## C11 -/

/-- Every entry is the width of its key. -/
def CacheOk (f : Flags) (c : Cache) : Prop := ∀ k v, c k = some v → v = visualWidth f k

theorem cacheOk_drop {f : Flags} {c : Cache} (h : CacheOk f c) (ev : Evict) : CacheOk f (c.drop ev) := by
  intro k v hk
  unfold Cache.drop at hk
  split at hk
  · simp at hk
  · exact h k v hk

theorem cacheOk_set {f : Flags} {c : Cache} (h : CacheOk f c) (s : GoString) :
    CacheOk f (c.set s (visualWidth f s)) := by
  intro k v hk
  unfold Cache.set at hk
  split at hk
  · rename_i he; simp at hk; rw [← hk, he]
  · exact h k v hk

theorem cacheOk_hit {f : Flags} {c : Cache} (h : CacheOk f c) (s : GoString) (hw : 0 < (c s).getD 0) :
    (c s).getD 0 = visualWidth f s := by
  cases hc : c s with
  | none => rw [hc] at hw; simp at hw
  | some v => exact h s v hc

theorem cached_correct (f : Flags) (c : Cache) (h : CacheOk f c) (ev1 ev2 : Evict) (s : GoString) :
    (visualWidthCached f ev1 ev2 c s).1 = visualWidth f s ∧
    CacheOk f (visualWidthCached f ev1 ev2 c s).2 := by
  unfold visualWidthCached
  dsimp only
  have h1 := cacheOk_drop h ev1
  split
  · rename_i hw
    exact ⟨cacheOk_hit h1 s hw, h1⟩
  · exact ⟨rfl, cacheOk_drop (cacheOk_set h1 s) ev2⟩

/-- C11. Whatever was measured before and whatever was evicted, each call returns the width computed
from scratch. -/
theorem C11_cache_invisible (f : Flags) (calls : List (Evict × Evict × GoString)) :
    callResults f emptyCache calls = calls.map fun e => visualWidth f e.2.2 := by
  suffices h : ∀ c, CacheOk f c → callResults f c calls = calls.map fun e => visualWidth f e.2.2 from
    h _ (fun k v hk => by simp [emptyCache] at hk)
  induction calls with
  | nil => intro c _; rfl
  | cons e calls ih =>
    intro c hc
    have := cached_correct f c hc e.1 e.2.1 e.2.2
    rw [callResults, List.map_cons, this.1, ih _ this.2]

/-- Repeated and zero-width strings, nothing evicted: the second `"ab"` is answered from the cache. -/
example : callResults ⟨false, true⟩ emptyCache
    [(fun _ => false, fun _ => false, lit "ab"), (fun _ => false, fun _ => false, []),
     (fun _ => false, fun _ => false, lit "ab")] = [2, 0, 2] := by
  rw [C11_cache_invisible]; decide +kernel

/-- The settings have to stay: an entry made before the East Asian flag was turned on is still used. -/
theorem C11_stale_after_settings_change :
    let c := (visualWidthCached ⟨false, true⟩ (fun _ => false) (fun _ => false) emptyCache (lit "§")).2
    (visualWidthCached ⟨true, true⟩ (fun _ => false) (fun _ => false) c (lit "§")).1 = 1 ∧
    visualWidth ⟨true, true⟩ (lit "§") = 2 := by
  simp only [visualWidthCached, visualWidth, stringWidth, runeWidth_eq_plain]
  decide +kernel

/-! ## C12 -/

/-- What holds of every state reached. -/
def SharedInv (f : Flags) (work : Nat → List GoString) (st : Shared) : Prop :=
  CacheOk f st.cache ∧ ∀ i,
    (∀ e ∈ (st.threads i).done, e.2 = visualWidth f e.1) ∧
    (st.threads i).done.map Prod.fst ++ (st.threads i).pending.toList ++ (st.threads i).todo = work i

theorem sharedInv_step {f : Flags} {work : Nat → List GoString} {a b : Shared} (h : SharedInv f work a)
    (hs : Shared.Step f a b) : SharedInv f work b := by
  obtain ⟨hc, ht⟩ := h
  cases hs with
  | evict ev => exact ⟨cacheOk_drop hc ev, ht⟩
  | hit i s rest hp htd hw =>
    refine ⟨hc, fun j => ?_⟩
    dsimp only [Shared.setThread]
    by_cases hj : j = i
    · rw [if_pos hj]
      obtain ⟨h1, h2⟩ := ht i
      rw [hp, htd] at h2
      refine ⟨?_, ?_⟩
      · intro e he
        rcases List.mem_append.mp he with he | he
        · exact h1 e he
        · simp at he; rw [he]; exact cacheOk_hit hc s hw
      · rw [hj, ← h2]; simp
    · rw [if_neg hj]; exact ht j
  | miss i s rest hp htd hw =>
    refine ⟨hc, fun j => ?_⟩
    dsimp only [Shared.setThread]
    by_cases hj : j = i
    · rw [if_pos hj]
      obtain ⟨h1, h2⟩ := ht i
      rw [hp, htd] at h2
      refine ⟨h1, ?_⟩
      rw [hj, ← h2]; simp
    · rw [if_neg hj]; exact ht j
  | store i s hp =>
    refine ⟨cacheOk_set hc s, fun j => ?_⟩
    dsimp only [Shared.setThread]
    by_cases hj : j = i
    · rw [if_pos hj]
      obtain ⟨h1, h2⟩ := ht i
      rw [hp] at h2
      refine ⟨?_, ?_⟩
      · intro e he
        rcases List.mem_append.mp he with he | he
        · exact h1 e he
        · simp at he; rw [he]
      · rw [hj, ← h2]; simp
    · rw [if_neg hj]; exact ht j

theorem sharedInv_reaches {f : Flags} {work : Nat → List GoString} {a b : Shared} (h : SharedInv f work a)
    (hs : Shared.Reaches f a b) : SharedInv f work b := by
  induction hs with
  | refl => exact h
  | step _ hst ih => exact sharedInv_step ih hst

/-- C12. Any number of goroutines, any interleaving of their cache operations, any evictions: every
finished call has returned the width computed from scratch, calls finish in the order made, and a
goroutine with work left is never stuck. -/
theorem C12_cache_invisible_concurrently (f : Flags) (work : Nat → List GoString) (st : Shared)
    (h : Shared.Reaches f (Shared.start work) st) (i : Nat) :
    (st.threads i).done = (((work i).take (st.threads i).done.length).map fun s => (s, visualWidth f s)) ∧
    ((st.threads i).done.length < (work i).length → ∃ st', Shared.Step f st st' ∧
      ((st'.threads i).todo, (st'.threads i).pending) ≠ ((st.threads i).todo, (st.threads i).pending)) := by
  have hinv : SharedInv f work st := sharedInv_reaches
    ⟨fun k v hk => by simp [Shared.start] at hk, fun i => ⟨by simp [Shared.start], by simp [Shared.start]⟩⟩ h
  obtain ⟨h1, h2⟩ := hinv.2 i
  constructor
  · have e : (work i).take (st.threads i).done.length = (st.threads i).done.map Prod.fst := by
      rw [← h2, List.append_assoc]
      rw [List.take_append_of_le_length (by simp)]
      rw [List.take_of_length_le (by simp)]
    rw [e, List.map_map]
    conv_lhs => rw [← List.map_id (st.threads i).done]
    refine List.map_congr_left (fun e he => ?_)
    exact Prod.ext rfl (h1 e he)
  · intro hlt
    rw [← h2] at hlt
    simp only [List.length_append, List.length_map] at hlt
    cases hp : (st.threads i).pending with
    | some s =>
      refine ⟨_, Shared.Step.store st i s hp, ?_⟩
      simp [Shared.setThread]
    | none =>
      rw [hp] at hlt
      simp at hlt
      obtain ⟨s, rest, ht⟩ := List.exists_cons_of_ne_nil (List.length_pos_iff.mp hlt)
      by_cases hw : 0 < (st.cache s).getD 0
      · refine ⟨_, Shared.Step.hit st i s rest hp ht hw, ?_⟩
        simp [Shared.setThread, ht]
      · refine ⟨_, Shared.Step.miss st i s rest hp ht hw, ?_⟩
        simp [Shared.setThread]

/-- Two goroutines miss on the same string, both store it. -/
example : ∃ st, Shared.Reaches ⟨false, true⟩ (Shared.start fun _ => [lit "ab"]) st ∧
    (st.threads 0).done.length = 1 ∧ (st.threads 1).done.length = 1 := by
  have r0 : Shared.Reaches ⟨false, true⟩ (Shared.start fun _ => [lit "ab"]) _ := Shared.Reaches.refl _
  have r1 := r0.step (Shared.Step.miss _ 0 (lit "ab") [] rfl rfl (by simp [Shared.start]))
  have r2 := r1.step (Shared.Step.miss _ 1 (lit "ab") [] rfl rfl (by simp [Shared.start, Shared.setThread]))
  have r3 := r2.step (Shared.Step.store _ 0 (lit "ab") rfl)
  have r4 := r3.step (Shared.Step.store _ 1 (lit "ab") rfl)
  exact ⟨_, r4, rfl, rfl⟩

/-! ## C13 -/

/-- C13. -/
theorem C13_no_introducer (f : Flags) (s : GoString) (h : ∀ r ∈ runes s, r ≠ 0x1B ∧ r ≠ 0x9B) :
    visualWidth f s = UInt16.ofNat (stringWidth f s) := by
  rw [visualWidth_eq, cnt_no_lead h, ← u16_eq_ofNat]
  simp

/-- Text full of the characters an escape sequence is made of, but without introducer. -/
example : (∀ r ∈ runes (lit "[1;31m中[0m"), r ≠ 0x1B ∧ r ≠ 0x9B) ∧
    visualWidth ⟨false, true⟩ (lit "[1;31m中[0m") = 11 := by decide +kernel

/-! ## C14 -/

theorem coloured_nil (s0 : GoString) : coloured s0 [] = s0 := by simp [coloured]

theorem coloured_cons (s0 : GoString) (ps : List GoString) (t : GoString) (l : List (List GoString × GoString)) :
    coloured s0 ((ps, t) :: l) = s0 ++ (csi ps 0x6D ++ coloured t l) := by
  simp [coloured, sgr]

theorem finalByte_m : FinalByte 0x6D := by unfold FinalByte; decide

theorem startsExtending_coloured {t : GoString} {l : List (List GoString × GoString)}
    (h : ¬ StartsExtending t) : ¬ StartsExtending (coloured t l) := by
  rintro ⟨r, hr, hc⟩
  cases l with
  | nil => rw [coloured_nil] at hr; exact h ⟨r, hr, hc⟩
  | cons e l =>
    obtain ⟨ps, u⟩ := e
    rw [coloured_cons] at hr
    have hlit : lit "\x1b[" = [0x1B, 0x5B] := by decide +kernel
    have e1 : csi ps 0x6D ++ coloured u l = 0x1B :: (0x5B :: (join (lit ";") ps ++ [0x6D]) ++ coloured u l) := by
      rw [csi, ← join_eq, hlit]; simp
    rw [e1, runes_append _ _ (startsClean_ascii_cons _ _ (by decide))] at hr
    by_cases ht : runes t = []
    · rw [ht, List.nil_append, runes_ascii_cons _ _ (by decide)] at hr
      simp at hr
      subst hr
      rw [show classOf 27 = .control from classOf_esc] at hc
      simp at hc
    · obtain ⟨x, xs, hx⟩ := List.exists_cons_of_ne_nil ht
      rw [hx] at hr
      exact h ⟨r, by rw [hx]; exact hr, hc⟩

theorem coloured_widths (f : Flags) (s0 : GoString) (l : List (List GoString × GoString))
    (h0 : ∀ r ∈ runes s0, r ≠ 0x1B ∧ r ≠ 0x9B)
    (hl : ∀ e ∈ l, (∀ p ∈ e.1, Param p) ∧ (∀ r ∈ runes e.2, r ≠ 0x1B ∧ r ≠ 0x9B) ∧ ¬ StartsExtending e.2) :
    stringWidth f (coloured s0 l) =
      cnt (coloured s0 l) + (stringWidth f s0 + (l.map fun e => stringWidth f e.2).sum) := by
  induction l generalizing s0 with
  | nil => simp [coloured_nil, cnt_no_lead h0]
  | cons e l ih =>
    obtain ⟨ps, t⟩ := e
    obtain ⟨hp, ht, hx⟩ := hl _ (List.mem_cons_self)
    dsimp only at hp ht hx
    have IH := ih t ht (fun e he => hl e (List.mem_cons_of_mem _ he))
    rw [coloured_cons, stringWidth_csi f s0 _ ps hp 0x6D (by decide) (startsExtending_coloured hx)]
    have hclean : startsClean (csi ps 0x6D ++ coloured t l) = true := by
      obtain ⟨a, ha, _⟩ := csi_eq ps hp 0x6D (by decide)
      rw [ha]; exact startsClean_ascii_cons _ _ (by decide)
    rw [cnt_append_no_lead h0 hclean, cnt_csi ps hp _ finalByte_m, IH, List.map_cons, List.sum_cons]
    dsimp only
    omega

/-- C14. Text segments without introducers, with colour sequences in between: the visual width is the
sum of the widths of the segments. -/
theorem C14_sgr_invisible (f : Flags) (s0 : GoString) (l : List (List GoString × GoString))
    (h0 : ∀ r ∈ runes s0, r ≠ 0x1B ∧ r ≠ 0x9B)
    (hl : ∀ e ∈ l, (∀ p ∈ e.1, Param p) ∧ (∀ r ∈ runes e.2, r ≠ 0x1B ∧ r ≠ 0x9B) ∧
      ¬ StartsExtending e.2) :
    visualWidth f (coloured s0 l) =
      UInt16.ofNat (stringWidth f s0 + (l.map fun e => stringWidth f e.2).sum) := by
  rw [visualWidth_eq, coloured_widths f s0 l h0 hl, ← u16_eq_ofNat, u16_eq_iff]
  push_cast
  congr 1
  omega

/-- Red, reset, an empty and an empty-parameter sequence; and the width they have. -/
example :
    let l := [([lit "1", lit "31"], lit "中"), ([], lit ""), ([lit "", lit "0"], lit "x")]
    (∀ r ∈ runes (lit "a"), r ≠ 0x1B ∧ r ≠ 0x9B) ∧
    (∀ e ∈ l, (∀ p ∈ e.1, p.length ≤ 4 ∧ ∀ b ∈ p, 0x30 ≤ b.toNat ∧ b.toNat ≤ 0x39) ∧
      (∀ r ∈ runes e.2, r ≠ 0x1B ∧ r ≠ 0x9B) ∧
      (∀ r ∈ (runes e.2).head?, classOf r = .other)) ∧
    coloured (lit "a") l = lit "a\x1b[1;31m中\x1b[m\x1b[;0mx" ∧
    visualWidth ⟨false, true⟩ (coloured (lit "a") l) = 4 := by decide +kernel

/-- C14, one sequence, any final letter that the library knows (cursor movement, erasing, ...). -/
theorem C14_control_sequence_invisible (f : Flags) (a b : GoString) (ps : List GoString) (fin : UInt8)
    (ha : ∀ r ∈ runes a, r ≠ 0x1B ∧ r ≠ 0x9B) (hb : ¬ StartsExtending b) (hp : ∀ p ∈ ps, Param p)
    (hfin : fin ∈ lit "ABCDEFGHIJKLMNORZcfghijklmnqry") :
    visualWidth f (a ++ csi ps fin ++ b) =
      UInt16.ofNat (stringWidth f a) + visualWidth f b := by
  have hF : FinalByte fin ∧ 0x20 ≤ fin.toNat ∧ fin.toNat ≤ 0x7E := by
    have H : ∀ fin ∈ lit "ABCDEFGHIJKLMNORZcfghijklmnqry",
        (fin.toNat < 0x80 ∧ ansiFinal fin.toNat = true ∧ isDigit fin.toNat = false ∧ isSemi fin.toNat = false ∧
        ansiPrefix fin.toNat = false) ∧ 0x20 ≤ fin.toNat ∧ fin.toNat ≤ 0x7E := by decide +kernel
    exact H fin hfin
  have hclean : startsClean (csi ps fin ++ b) = true := by
    obtain ⟨x, hx, _⟩ := csi_eq ps hp fin hF.2
    rw [hx]; exact startsClean_ascii_cons _ _ (by decide)
  have hpos : 0 < (csi ps fin).length := by
    obtain ⟨x, hx, _⟩ := csi_eq ps hp fin hF.2
    rw [hx]; simp
  rw [List.append_assoc, visualWidth_eq, visualWidth_eq, stringWidth_csi f a b ps hp fin hF.2 hb,
    cnt_append_no_lead ha hclean, cnt_csi ps hp fin hF.1, ← u16_eq_ofNat]
  rw [← UInt16.toNat_inj, UInt16.toNat_add]
  have h1 := u16_toNat ((stringWidth f a + ((csi ps fin).length - 1) + stringWidth f b : Nat) -
    (((csi ps fin).length - 1 + cnt b : Nat) : Int))
  have h2 := u16_toNat (stringWidth f a)
  have h3 := u16_toNat ((stringWidth f b : Int) - cnt b)
  omega

/-- Clear the line, in the middle of a text. -/
example : (0x4B : UInt8) ∈ lit "ABCDEFGHIJKLMNORZcfghijklmnqry" ∧
    lit "ab" ++ csi [lit "2"] 0x4B ++ lit "cd" = lit "ab\x1b[2Kcd" ∧
    visualWidth ⟨false, true⟩ (lit "ab\x1b[2Kcd") = 4 := by decide +kernel

/-! ## C15 -/

/-- C15. Without U+009B what is subtracted is never more than the string width, so no wrap-around comes
from the subtraction. -/
theorem C15_no_underflow (f : Flags) (s : GoString) (h : 0x9B ∉ runes s) :
    0 ≤ countMatchesLength s ∧ countMatchesLength s ≤ stringWidth f s ∧
    (stringWidth f s < 65536 →
      ((visualWidth f s).toNat : Int) = stringWidth f s - countMatchesLength s) := by
  have h1 := cnt_le_stringWidth f s h
  rw [countMatchesLength_eq, visualWidth_eq]
  refine ⟨by omega, by omega, fun hlt => ?_⟩
  rw [u16_toNat]
  omega

/-- Escape sequences of other shapes, cut off and nested. -/
example : 0x9B ∉ runes (lit "\x1b[?25l\x1b(B\x1b[\x1b[0") ∧
    visualWidth ⟨false, true⟩ (lit "\x1b[?25l\x1b(B\x1b[\x1b[0") = 1 := by decide +kernel

/-- U+009B takes two bytes but only one is left out: the width of `U+009B 0 m` is -1 modulo 2^16. -/
theorem C15_underflow_with_9b : visualWidth ⟨false, true⟩ (lit "\u009b0m") = 65535 := by decide +kernel

end GoTable
