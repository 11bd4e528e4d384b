import Verif.Model.Width
/-!
# /repo/alignment.go
-/

namespace GoTable

/-- /repo/alignment.go:7 `type Alignment` -/
abbrev Alignment := GoString → UInt16 → GoString

/-- /repo/alignment.go:9-15 `AlignmentLeft` (`alignSep` is one space, line 5). -/
def alignmentLeft (f : Flags) : Alignment := fun str width =>
  let strWidth := visualWidth f str
  if strWidth ≥ width then str
  else str ++ spaces (width - strWidth).toNat

/-- /repo/alignment.go:17-23 `AlignmentRight`. -/
def alignmentRight (f : Flags) : Alignment := fun str width =>
  let strWidth := visualWidth f str
  if strWidth ≥ width then str
  else spaces (width - strWidth).toNat ++ str

/-- /repo/alignment.go:25-34 `AlignmentCenter`. `(n-1)/2` is Go's truncated division; `Repeat` with a
negative count would panic in Go, and `right` is never negative (`Int.toNat` would hide that, so it is
proved as `center_right_nonneg`). -/
def alignmentCenter (f : Flags) : Alignment := fun str width =>
  let strWidth := visualWidth f str
  if strWidth ≥ width then str
  else
    let n : Int := (width - strWidth).toNat
    let left := (n - 1).tdiv 2 + 1
    let right := n - left
    spaces left.toNat ++ str ++ spaces right.toNat

/-- The padding counts of `AlignmentCenter` are non-negative, so `strings.Repeat` does not panic. -/
theorem center_right_nonneg (n : Nat) (h : 0 < n) :
    0 ≤ ((n : Int) - 1).tdiv 2 + 1 ∧ 0 ≤ (n : Int) - (((n : Int) - 1).tdiv 2 + 1) := by
  rw [Int.tdiv_eq_ediv_of_nonneg (by omega)]
  omega

end GoTable
