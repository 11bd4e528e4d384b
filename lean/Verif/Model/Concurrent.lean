import Verif.Model.Width
/-!
# /repo/width.go under concurrency

Go gives no ordering between the cache operations of different goroutines. The model lets any number of
goroutines run `visualWidth` calls, one atomic cache operation per step, in any order, and lets the
cache evict anything at any time. That `Get` and `Set` of the cache are atomic is an assumption: the
cache package is not in /repo. (If it is not synchronised, concurrent use is a data race in Go and
nothing is guaranteed.)
-/

namespace GoTable

/-- One goroutine making `visualWidth` calls, /repo/width.go:23-37. -/
structure Goroutine where
  /-- strings still to be measured -/
  todo : List GoString
  /-- between the `Get` that found nothing (line 31) and the `Set` (line 35) -/
  pending : Option GoString
  /-- finished calls: argument and returned width -/
  done : List (GoString × UInt16)

/-- All goroutines and the shared cache. -/
structure Shared where
  cache : Cache
  threads : Nat → Goroutine

/-- Replace goroutine `i`. -/
def Shared.setThread (st : Shared) (i : Nat) (g : Goroutine) : Shared :=
  { st with threads := fun j => if j = i then g else st.threads j }

/-- One atomic step of the program, under width settings `f`. -/
inductive Shared.Step (f : Flags) : Shared → Shared → Prop where
  /-- the cache drops some entries -/
  | evict (st : Shared) (ev : Evict) : Step f st { st with cache := st.cache.drop ev }
  /-- lines 31-34: `Get` finds a positive width, which is returned -/
  | hit (st : Shared) (i : Nat) (s : GoString) (rest : List GoString)
      (hp : (st.threads i).pending = none) (ht : (st.threads i).todo = s :: rest)
      (hw : 0 < (st.cache s).getD 0) :
      Step f st (st.setThread i ⟨rest, none, (st.threads i).done ++ [(s, (st.cache s).getD 0)]⟩)
  /-- line 31: `Get` finds nothing, or the width 0 -/
  | miss (st : Shared) (i : Nat) (s : GoString) (rest : List GoString)
      (hp : (st.threads i).pending = none) (ht : (st.threads i).todo = s :: rest)
      (hw : ¬ 0 < (st.cache s).getD 0) :
      Step f st (st.setThread i ⟨rest, some s, (st.threads i).done⟩)
  /-- lines 34-36: compute, `Set`, return -/
  | store (st : Shared) (i : Nat) (s : GoString) (hp : (st.threads i).pending = some s) :
      Step f st ({ st with cache := st.cache.set s (visualWidth f s) }.setThread i
        ⟨(st.threads i).todo, none, (st.threads i).done ++ [(s, visualWidth f s)]⟩)

/-- Executions: any number of steps. -/
inductive Shared.Reaches (f : Flags) : Shared → Shared → Prop where
  | refl (st : Shared) : Reaches f st st
  | step {a b c : Shared} : Reaches f a b → Shared.Step f b c → Reaches f a c

/-- Start: an empty cache, goroutine `i` is to measure the strings `work i`. -/
def Shared.start (work : Nat → List GoString) : Shared where
  cache := fun _ => none
  threads := fun i => ⟨work i, none, []⟩

end GoTable
