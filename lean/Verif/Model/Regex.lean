import Verif.Model.GoString
/-!
# A model of package regexp for the two expressions in the repository

Go's regexp (standard library, not in /repo) finds the leftmost match and, among matches starting
there, the one a backtracking search would find first (greedy operators try the longer choice first).
`Regex.run re s` lists, in that order of preference, what may remain of `s` after a match at its start.
Input is decoded rune by rune; an invalid byte is read as U+FFFD of size 1, as in package regexp.
-/

namespace GoTable

/-- The syntax used by the expressions in the repository. -/
inductive Regex where
  /-- a character class -/
  | cls (p : Nat → Bool)
  /-- concatenation -/
  | cat (a b : Regex)
  /-- greedy `a?` -/
  | opt (a : Regex)
  /-- greedy `a*` -/
  | star (a : Regex)

/-- Greedy iteration of a step function: try one more iteration first, then stop. Iterations that
consume nothing are not repeated (no starred part in the repository can match the empty string). -/
def starRun (f : GoString → List GoString) (s : GoString) : List GoString :=
  ((f s).flatMap fun s' => if _h : s'.length < s.length then starRun f s' else []) ++ [s]
termination_by s.length

/-- What may remain after matching at the start of the input, most preferred first. -/
def Regex.run : Regex → GoString → List GoString
  | .cls p, s =>
    match s with
    | [] => []
    | b :: t =>
      let d := decodeRune (b :: t)
      if p d.1 then [(b :: t).drop d.2] else []
  | .cat a b, s => (a.run s).flatMap b.run
  | .opt a, s => a.run s ++ [s]
  | .star a, s => starRun a.run s

/-- `a{0,n+1}`, greedy: `(a(a(...)?)?)?`. -/
def Regex.upToSucc (a : Regex) : Nat → Regex
  | 0 => .opt a
  | n + 1 => .opt (.cat a (Regex.upToSucc a n))

/-- `FindStringIndex` from byte offset `pos` on; `s` is the rest of the input at `pos`. -/
def Regex.findFrom (re : Regex) (pos : Nat) (s : GoString) : Option (Nat × Nat) :=
  match re.run s with
  | rest :: _ => some (pos, pos + (s.length - rest.length))
  | [] =>
    if _h : s = [] then none
    else re.findFrom (pos + (decodeRune s).2) (s.drop (decodeRune s).2)
termination_by s.length
decreasing_by
  have := decodeRune_size s _h
  simp [List.length_drop]; omega

/-- `re.FindStringIndex(s)`: byte offsets of the first match, or nil. -/
def Regex.findStringIndex (re : Regex) (s : GoString) : Option (Nat × Nat) := re.findFrom 0 s

/-! ## Every remainder is a suffix of the input -/

theorem starRun_suffix (f : GoString → List GoString)
    (hf : ∀ s, ∀ r ∈ f s, r <:+ s) (s : GoString) : ∀ r ∈ starRun f s, r <:+ s := by
  fun_induction starRun f s with
  | case1 s ih =>
    intro r hr
    rw [List.mem_append] at hr
    rcases hr with hr | hr
    · rw [List.mem_flatMap] at hr
      obtain ⟨s', hs', hr⟩ := hr
      split at hr
      · rename_i hlt
        exact (ih s' hlt r hr).trans (hf s s' hs')
      · simp at hr
    · simp at hr; subst hr; exact List.suffix_refl _

theorem Regex.run_suffix (re : Regex) : ∀ (s : GoString), ∀ r ∈ re.run s, r <:+ s := by
  induction re with
  | cls p =>
    intro s r hr
    unfold Regex.run at hr
    split at hr
    · simp at hr
    · dsimp only at hr
      split at hr
      · simp only [List.mem_singleton] at hr
        subst hr; exact List.drop_suffix _ _
      · simp at hr
  | cat a b iha ihb =>
    intro s r hr
    simp only [Regex.run, List.mem_flatMap] at hr
    obtain ⟨m, hm, hr⟩ := hr
    exact (ihb m r hr).trans (iha s m hm)
  | opt a iha =>
    intro s r hr
    simp only [Regex.run, List.mem_append, List.mem_singleton] at hr
    rcases hr with hr | rfl
    · exact iha s r hr
    · exact List.suffix_refl _
  | star a iha =>
    intro s r hr
    exact starRun_suffix _ iha s r hr

theorem Regex.findFrom_bounds (re : Regex) (hre : ∀ s, ∀ r ∈ re.run s, r.length < s.length)
    (pos : Nat) (s : GoString) (a b : Nat) (h : re.findFrom pos s = some (a, b)) :
    pos ≤ a ∧ a < b ∧ b ≤ pos + s.length := by
  fun_induction Regex.findFrom re pos s with
  | case1 pos s rest tl heq =>
    simp only [Option.some.injEq, Prod.mk.injEq] at h
    have h1 := hre s rest (by rw [heq]; simp)
    omega
  | case2 => simp at h
  | case3 pos s heq hne ih =>
    have h1 := decodeRune_size s hne
    have h2 := ih h
    simp only [List.length_drop] at h2
    omega

end GoTable
