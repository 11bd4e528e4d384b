import Verif.Spec.Edges
import Verif.Proofs.RuneWidth
import Verif.Proofs.StringWidth
/-! Printable ASCII in widths. -/

namespace GoTable
open Spec

/-- Printable ASCII. -/
def printableASCII (s : GoString) : Prop := ∀ b ∈ s, 0x20 ≤ b.toNat ∧ b.toNat ≤ 0x7E

theorem sw_singleton (w : Nat → Nat) (r : Nat) : sw w [r] = w r := by
  simp [sw, segments, segs, clusterWidth]
  omega

theorem sw_snoc_other (w : Nat → Nat) (a : List Nat) (r : Nat) (h : classOf r = .other)
    (ha : (a.map classOf).getLast? ≠ some .prepend) : sw w (a ++ [r]) = sw w a + w r := by
  rw [sw_append, sw_singleton]
  rintro _ r' rs he
  obtain ⟨rfl, rfl⟩ := List.cons.inj he
  rw [h]
  exact breaks_other _ ha

theorem sw_append_ascii (f : Flags) (a b : List Nat) (hb : ∀ r ∈ b, 0x20 ≤ r ∧ r ≤ 0x7E)
    (ha : (a.map classOf).getLast? ≠ some .prepend) :
    sw (fun r => runeWidth f r) (a ++ b) = sw (fun r => runeWidth f r) a + b.length := by
  induction b generalizing a with
  | nil => simp
  | cons r b ih =>
    have hr := hb r (by simp)
    have e : a ++ r :: b = (a ++ [r]) ++ b := by simp
    have hc := classOf_ascii r hr.1 hr.2
    rw [e, ih _ (fun x hx => hb x (List.mem_cons_of_mem _ hx)) (by simp [hc]), sw_snoc_other _ _ _ hc ha,
      runeWidth_ascii f r hr.1 hr.2, List.length_cons]
    omega

theorem startsClean_ascii {b : GoString} (hb : printableASCII b) : startsClean b = true := by
  cases b with
  | nil => rfl
  | cons x b => exact startsClean_ascii_cons x b (by have := hb x (by simp); omega)

theorem runes_printable {b : GoString} (hb : printableASCII b) : runes b = b.map UInt8.toNat :=
  runes_ascii b (fun x hx => by have := hb x hx; omega)

theorem stringWidth_append_ascii (f : Flags) (a b : GoString) (hb : printableASCII b)
    (ha : ¬ EndsInPrepend a) : stringWidth f (a ++ b) = stringWidth f a + b.length := by
  rw [stringWidth_eq_sw, stringWidth_eq_sw, runes_append _ _ (startsClean_ascii hb), runes_printable hb,
    sw_append_ascii f _ _ _ ha, List.length_map]
  intro r hr
  obtain ⟨x, hx, rfl⟩ := List.mem_map.mp hr
  exact hb x hx

theorem stringWidth_nil (f : Flags) : stringWidth f [] = 0 := by rw [stringWidth_eq_sw, runes_nil]; rfl

theorem stringWidth_ascii (f : Flags) (b : GoString) (hb : printableASCII b) : stringWidth f b = b.length := by
  have := stringWidth_append_ascii f [] b hb (by simp [EndsInPrepend])
  rw [stringWidth_nil] at this
  simpa using this

end GoTable
