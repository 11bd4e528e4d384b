/-!
# /repo/runewidth/script/generate.go: compaction of ranges in the table generator
-/

namespace GoTable

/-- A `rune` is an `int32`: numbers wrap around. -/
def wrapRune (n : Int) : Int := (n + 2 ^ 31) % 2 ^ 32 - 2 ^ 31

/-- The loop of `shapeup`, /repo/runewidth/script/generate.go:42-49, at index `i`. When two neighbours
are merged the Go code removes element `i`, sets the `lo` of the element now at `i`, and does `i--`
before the `i++`, so the next round looks at the same index. -/
def shapeupLoop (arr : List (Int × Int)) (i : Nat) : List (Int × Int) :=
  if h : i + 1 < arr.length then
    let a := arr[i]
    let b := arr[i + 1]
    if wrapRune (a.2 + 1) = b.1 then shapeupLoop (arr.take i ++ (a.1, b.2) :: arr.drop (i + 2)) i
    else shapeupLoop arr (i + 1)
  else arr
termination_by arr.length - i
decreasing_by
  · simp; omega
  · omega

/-- /repo/runewidth/script/generate.go:40-51 `shapeup`. -/
def shapeup (arr : List (Int × Int)) : List (Int × Int) := shapeupLoop arr 0

end GoTable
