import Verif.Model.Regex
import Verif.Model.Grapheme
/-!
# /repo/width.go: visual width with ANSI escape sequences, and the width cache
-/

namespace GoTable

/-- `[\u001b\u009b]`, /repo/width.go:16 -/
def ansiLead (r : Nat) : Bool := r == 0x1b || r == 0x9b
/-- `[[()#;?]`, /repo/width.go:16: `[` `(` `)` `#` `;` `?` -/
def ansiPrefix (r : Nat) : Bool :=
  r == 0x5b || r == 0x28 || r == 0x29 || r == 0x23 || r == 0x3b || r == 0x3f
/-- `[0-9]` -/
def isDigit (r : Nat) : Bool := 0x30 ≤ r && r ≤ 0x39
/-- `;` -/
def isSemi (r : Nat) : Bool := r == 0x3b
/-- `[0-9A-ORZcf-nqry=><]`, /repo/width.go:16 -/
def ansiFinal (r : Nat) : Bool :=
  (0x30 ≤ r && r ≤ 0x39) || (0x41 ≤ r && r ≤ 0x4f) || r == 0x52 || r == 0x5a || r == 0x63 ||
  (0x66 ≤ r && r ≤ 0x6e) || r == 0x71 || r == 0x72 || r == 0x79 || r == 0x3d || r == 0x3e || r == 0x3c

/-- `[0-9]{1,4}(?:;[0-9]{0,4})*` -/
def ansiParams : Regex :=
  .cat (.cat (.cls isDigit) (.upToSucc (.cls isDigit) 2))
    (.star (.cat (.cls isSemi) (.upToSucc (.cls isDigit) 3)))

/-- /repo/width.go:15-17 `ansiEscapeRE`:
`[\u001b\u009b][[()#;?]*(?:[0-9]{1,4}(?:;[0-9]{0,4})*)?[0-9A-ORZcf-nqry=><]` -/
def ansiEscapeRE : Regex :=
  .cat (.cls ansiLead) (.cat (.star (.cls ansiPrefix)) (.cat (.opt ansiParams) (.cls ansiFinal)))

theorem cls_run_lt (p : Nat → Bool) (s r : GoString) (h : r ∈ (Regex.cls p).run s) :
    r.length < s.length := by
  unfold Regex.run at h
  split at h
  · simp at h
  · dsimp only at h
    split at h
    · simp only [List.mem_singleton] at h
      subst h
      rename_i b t _
      have := decodeRune_size (b :: t) (by simp)
      simp only [List.length_drop]; omega
    · simp at h

theorem ansiEscapeRE_run_lt (s : GoString) : ∀ r ∈ ansiEscapeRE.run s, r.length < s.length := by
  intro r hr
  unfold ansiEscapeRE at hr
  rw [Regex.run, List.mem_flatMap] at hr
  obtain ⟨m, hm, hr⟩ := hr
  have h1 := cls_run_lt _ _ _ hm
  have h2 := (Regex.run_suffix _ m r hr).length_le
  omega

/-- The loop of `countMatchesLength`, /repo/width.go:43-53, for the one expression it is called with
(line 34). It terminates because a match of that expression is never empty. -/
def countMatchesLoop (s : GoString) (start : Nat) (total : Int) : Int :=
  if _h : start < s.length then
    match hm : ansiEscapeRE.findStringIndex (s.drop start) with
    | none => total
    | some loc => countMatchesLoop s (start + loc.2) (total + ((loc.2 : Int) - loc.1 - 1))
  else total
termination_by s.length - start
decreasing_by
  have := Regex.findFrom_bounds ansiEscapeRE ansiEscapeRE_run_lt 0 _ loc.1 loc.2 hm
  omega

/-- /repo/width.go:39-55 `countMatchesLength(ansiEscapeRE, s)`. -/
def countMatchesLength (s : GoString) : Int := countMatchesLoop s 0 0

/-- The width computed on a cache miss, /repo/width.go:34. -/
def visualWidth (f : Flags) (s : GoString) : UInt16 :=
  u16 ((stringWidth f s : Int) - countMatchesLength s)

/-! ## The cache

`lru.New[string, uint16]` (/repo/width.go:19) comes from a dependency that is not in /repo. What the
code relies on is: `Get` returns the value last `Set` for that key, or the zero value if there is none
or it has been evicted. Eviction is left to an adversary. -/

/-- The cache contents: at most one value per key. -/
abbrev Cache := GoString → Option UInt16

/-- Entries the cache drops before an operation: any set of keys. -/
abbrev Evict := GoString → Bool

/-- Contents after the adversary dropped some entries. -/
def Cache.drop (c : Cache) (ev : Evict) : Cache := fun k => if ev k then none else c k

/-- `widthCache.Set(k, v)` -/
def Cache.set (c : Cache) (k : GoString) (v : UInt16) : Cache := fun k' => if k' = k then some v else c k'

/-- /repo/width.go:23-37 `visualWidth`, with the cache threaded through. `ev1` and `ev2` are the
evictions that happen before the `Get` and after the `Set`. -/
def visualWidthCached (f : Flags) (ev1 ev2 : Evict) (c : Cache) (s : GoString) : UInt16 × Cache :=
  let c := c.drop ev1
  let w := (c s).getD 0
  if 0 < w then (w, c)
  else
    let w := visualWidth f s
    (w, (c.set s w).drop ev2)

end GoTable
