import Verif.Model.GoString
/-! `strings.Join`. -/

namespace GoTable

theorem join_eq (sep : GoString) (l : List GoString) : join sep l = List.intercalate sep l := by
  induction l with
  | nil => rfl
  | cons a l ih =>
    cases l with
    | nil => simp [join, List.intercalate]
    | cons b l =>
      rw [join, ih]
      simp [List.intercalate, List.intersperse]

end GoTable
