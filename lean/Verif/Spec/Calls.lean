import Verif.Model.Concurrent
/-!
# Specification: histories of width measurements
-/

namespace GoTable.Spec

/-- A history of calls that share the cache: before and after each, the cache may evict anything. The
results, in order. -/
def callResults (f : Flags) (c : Cache) : List (Evict × Evict × GoString) → List UInt16
  | [] => []
  | (ev1, ev2, s) :: calls =>
    (visualWidthCached f ev1 ev2 c s).1 :: callResults f (visualWidthCached f ev1 ev2 c s).2 calls

/-- The cache when the program starts. -/
def emptyCache : Cache := fun _ => none

end GoTable.Spec
