import Verif.Spec.GoSource
import Verif.Model.GenSource
import Verif.Props.GenProperties
/-!
# Facts about the command line of the generator and the reading of its output
-/

namespace GoTable
open Spec

/-! ## Splitting -/

theorem splitByte_ne_nil (sep : UInt8) (s : GoString) : splitByte sep s ≠ [] := by
  cases s with
  | nil => simp [splitByte]
  | cons b t =>
    rw [splitByte]
    split
    · simp
    · split <;> simp

theorem splitByte_append (sep : UInt8) (f s : GoString) (hf : sep ∉ f) :
    splitByte sep (f ++ sep :: s) = f :: splitByte sep s := by
  induction f with
  | nil => simp [splitByte]
  | cons b f ih =>
    simp only [List.mem_cons, not_or] at hf
    rw [List.cons_append, splitByte, if_neg (fun h => hf.1 h.symm), ih hf.2]

theorem splitByte_single (sep : UInt8) (f : GoString) (hf : sep ∉ f) : splitByte sep f = [f] := by
  induction f with
  | nil => simp [splitByte]
  | cons b f ih =>
    simp only [List.mem_cons, not_or] at hf
    rw [splitByte, if_neg (fun h => hf.1 h.symm), ih hf.2]

theorem splitByte_fields (sep : UInt8) (s : GoString) :
    (∀ f ∈ splitByte sep s, sep ∉ f) ∧ List.intercalate [sep] (splitByte sep s) = s := by
  induction s with
  | nil => simp [splitByte]
  | cons b t ih =>
    rw [splitByte]
    split
    · rename_i hb
      subst hb
      refine ⟨?_, ?_⟩
      · intro f hf
        rcases List.mem_cons.mp hf with rfl | hf
        · simp
        · exact ih.1 f hf
      · cases hs : splitByte b t with
        | nil => exact absurd hs (splitByte_ne_nil _ _)
        | cons f fs => rw [List.intercalate_cons_cons, ← hs, ih.2]; rfl
    · rename_i hb
      cases hs : splitByte sep t with
      | nil => exact absurd hs (splitByte_ne_nil _ _)
      | cons f fs =>
        rw [hs] at ih
        refine ⟨?_, ?_⟩
        · intro g hg
          rcases List.mem_cons.mp hg with rfl | hg
          · simp only [List.mem_cons, not_or]
            exact ⟨fun h => hb h.symm, ih.1 f (by simp)⟩
          · exact ih.1 g (by simp [hg])
        · cases fs with
          | nil => simpa using ih.2
          | cons g gs =>
            have := ih.2
            rw [List.intercalate_cons_cons] at this ⊢
            rw [List.cons_append, List.cons_append, this]

theorem splitByte_intercalate (sep : UInt8) (fs : List GoString) (hne : fs ≠ []) (hf : ∀ f ∈ fs, sep ∉ f) :
    splitByte sep (List.intercalate [sep] fs) = fs := by
  induction fs with
  | nil => simp at hne
  | cons f fs ih =>
    cases fs with
    | nil => simpa using splitByte_single sep f (hf f (by simp))
    | cons g gs =>
      rw [List.intercalate_cons_cons, List.append_assoc, List.singleton_append, splitByte_append sep f _ (hf f (by simp)),
        ih (by simp) fun x hx => hf x (by simp [hx])]

theorem exists_perm_map {α β : Type} {f : α → β} {l : List α} {s : List β} (h : s.Perm (l.map f)) :
    ∃ z : List α, z.Perm l ∧ z.map f = s := by
  induction s generalizing l with
  | nil => exact ⟨[], by have := h.length_eq; cases l <;> simp_all, rfl⟩
  | cons a s ih =>
    have ha : a ∈ l.map f := h.mem_iff.mp (by simp)
    obtain ⟨x, hx, rfl⟩ := List.mem_map.mp ha
    obtain ⟨l1, l2, rfl⟩ := List.append_of_mem hx
    have h2 : s.Perm ((l1 ++ l2).map f) := by
      have : (f x :: s).Perm (f x :: (l1 ++ l2).map f) := by
        refine h.trans ?_
        simp only [List.map_append, List.map_cons]
        exact List.perm_middle
      exact List.Perm.cons_inv this
    obtain ⟨z, hz, hs⟩ := ih h2
    exact ⟨x :: z, (List.Perm.cons x hz).trans List.perm_middle.symm, by simp [hs]⟩

/-! ## Flags -/

theorem FlagIs_iff (flag k v : GoString) :
    FlagIs flag k v ↔ flagPair flag = (k, v) := by
  unfold flagPair
  have hs := splitByte_fields 0x3D flag
  constructor
  · rintro ⟨hk, ⟨rfl, rfl⟩ | ⟨rest, rfl, hv, hr⟩⟩
    · rw [splitByte_single _ _ hk]
    · rw [List.append_assoc, List.append_assoc, List.singleton_append, splitByte_append _ _ _ hk]
      rcases hr with rfl | hr
      · rw [List.append_nil, splitByte_single _ _ hv]
      · cases rest with
        | nil => simp at hr
        | cons b rest =>
          simp only [List.head?_cons, Option.some.injEq] at hr
          subst hr
          rw [splitByte_append _ _ _ hv]
  · intro h
    cases hsp : splitByte 0x3D flag with
    | nil => exact absurd hsp (splitByte_ne_nil _ _)
    | cons f fs =>
      rw [hsp] at h hs
      cases fs with
      | nil =>
        simp only [Prod.mk.injEq] at h
        obtain ⟨rfl, rfl⟩ := h
        refine ⟨hs.1 f (by simp), .inl ⟨by simpa using hs.2.symm, rfl⟩⟩
      | cons g gs =>
        simp only [Prod.mk.injEq] at h
        obtain ⟨rfl, rfl⟩ := h
        refine ⟨hs.1 f (by simp), .inr ?_⟩
        cases gs with
        | nil =>
          refine ⟨[], ?_, hs.1 g (by simp), .inl rfl⟩
          rw [← hs.2]; simp [List.intercalate_cons_cons]
        | cons x xs =>
          refine ⟨0x3D :: List.intercalate [0x3D] (x :: xs), ?_, hs.1 g (by simp), .inr rfl⟩
          rw [← hs.2, List.intercalate_cons_cons, List.intercalate_cons_cons]
          simp

theorem FlagIs_some (flag : GoString) : ∃ k v, FlagIs flag k v := by
  refine ⟨_, _, (FlagIs_iff flag _ _).mpr rfl⟩

theorem flagIs_unique {flag k v k' v' : GoString} (h : FlagIs flag k v) (h' : FlagIs flag k' v') : k = k' ∧ v = v' := by
  rw [FlagIs_iff] at h h'
  rw [h] at h'
  simpa using h'

theorem addFlag_eq (flags : GoString → Option GoString) (flag k v : GoString) (h : FlagIs flag k v) (x : GoString) :
    addFlag flags flag x = if x = k then some v else flags x := by
  rw [addFlag, (FlagIs_iff flag k v).mp h]

theorem foldl_addFlag (fs : List GoString) (m : GoString → Option GoString) (k v : GoString) :
    fs.foldl addFlag m k = some v ↔ LastFlag fs k v ∨ (m k = some v ∧ ∀ g ∈ fs, ∀ v', ¬ FlagIs g k v') := by
  induction fs generalizing m with
  | nil =>
    constructor
    · intro h; exact .inr ⟨h, by simp⟩
    · rintro (⟨pre, f, post, h, _⟩ | ⟨h, _⟩)
      · simp at h
      · exact h
  | cons f fs ih =>
    obtain ⟨k0, v0, hf⟩ := FlagIs_some f
    rw [List.foldl_cons, ih, addFlag_eq m f k0 v0 hf]
    constructor
    · rintro (⟨pre, g, post, rfl, hg, hp⟩ | ⟨h, hn⟩)
      · exact .inl ⟨f :: pre, g, post, rfl, hg, hp⟩
      · by_cases hk : k = k0
        · subst hk
          simp only [if_true, Option.some.injEq] at h
          subst h
          exact .inl ⟨[], f, fs, rfl, hf, hn⟩
        · rw [if_neg hk] at h
          refine .inr ⟨h, ?_⟩
          intro g hg v' hv
          rcases List.mem_cons.mp hg with rfl | hg
          · exact hk (flagIs_unique hv hf).1
          · exact hn g hg v' hv
    · rintro (⟨pre, g, post, heq, hg, hp⟩ | ⟨h, hn⟩)
      · cases pre with
        | nil =>
          simp only [List.nil_append, List.cons.injEq] at heq
          obtain ⟨rfl, rfl⟩ := heq
          obtain ⟨rfl, rfl⟩ := flagIs_unique hg hf
          exact .inr ⟨by simp, hp⟩
        | cons a pre =>
          simp only [List.cons_append, List.cons.injEq] at heq
          exact .inl ⟨pre, g, post, heq.2, hg, hp⟩
      · refine .inr ⟨?_, fun g hg => hn g (by simp [hg])⟩
        rw [if_neg ?_]
        · exact h
        · rintro rfl
          exact hn f (by simp) v0 hf

/-! ## Reading source -/

theorem readBytes_append (m : ReadMode) (a b : GoString) :
    readBytes m (a ++ b) =
      match readBytes m a with
      | none => none
      | some (m', t) => (readBytes m' b).map fun r => (r.1, t ++ r.2) := by
  induction a generalizing m with
  | nil => simp [readBytes]
  | cons x a ih =>
    rw [List.cons_append, readBytes, readBytes]
    cases readByte m x with
    | none => rfl
    | some r =>
      obtain ⟨m', t⟩ := r
      simp only [ih]
      cases readBytes m' a with
      | none => rfl
      | some r =>
        simp only [Option.map_some]
        cases readBytes r.1 b with
        | none => rfl
        | some q => simp

/-- Reading on from where `a` leaves the reader. -/
theorem readBytes_trans {m m' m'' : ReadMode} {a b : GoString} {t t' : List GoString}
    (h1 : readBytes m a = some (m', t)) (h2 : readBytes m' b = some (m'', t')) :
    readBytes m (a ++ b) = some (m'', t ++ t') := by
  rw [readBytes_append, h1]
  simp [h2]

theorem readBytes_comment (p : Bool) (c : GoString) (hc : 0x0A ∉ c) :
    readBytes (.comment p) c = some (.comment p, []) := by
  induction c with
  | nil => rfl
  | cons b c ih =>
    simp only [List.mem_cons, not_or] at hc
    rw [readBytes, readByte, if_neg (fun h => hc.1 h.symm)]
    simp [ih hc.2]

theorem readBytes_word (w v : GoString) (hv : ∀ b ∈ v, WordByte b) :
    readBytes (.word w) v = some (.word (w ++ v), []) := by
  induction v generalizing w with
  | nil => simp [readBytes]
  | cons b v ih =>
    rw [readBytes, readByte, if_pos (hv b (by simp))]
    simp [ih (w ++ [b]) fun x hx => hv x (by simp [hx])]

/-- A word after a blank or punctuation. -/
theorem readBytes_newWord (p : Bool) (v : GoString) (hne : v ≠ []) (hv : ∀ b ∈ v, WordByte b) :
    readBytes (.code p) v = some (.word v, []) := by
  cases v with
  | nil => simp at hne
  | cons b v =>
    have hb := hv b (by simp)
    have h1 : readCode p b = some (.word [b], []) := by
      unfold readCode
      have : ∀ b : UInt8, WordByte b → ¬ (b = 0x20 ∨ b = 0x09 ∨ b = 0x0D) ∧ b ≠ 0x0A ∧ b ≠ 0x2F := by
        intro b hb
        refine ⟨?_, ?_, ?_⟩
        · rintro (rfl | rfl | rfl) <;> revert hb <;> decide
        · rintro rfl; revert hb; decide
        · rintro rfl; revert hb; decide
      obtain ⟨a, c, d⟩ := this b hb
      rw [if_neg a, if_neg c, if_neg d, if_pos hb]
    rw [readBytes, readByte, h1]
    simp only
    rw [readBytes_word _ _ fun x hx => hv x (by simp [hx])]
    rfl

end GoTable
