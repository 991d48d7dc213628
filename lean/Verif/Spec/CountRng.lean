import Verif.Model.RandomVars

/-!
# A concrete family of generators for the examples

Generator `id` yields `100 * id`, `100 * id + 1`, ... whatever the distribution.
-/

namespace Gerabaldi.Spec

/-- How many numbers each generator has produced. -/
structure Counts where
  next : Nat → Nat

/-- No generator used yet. -/
def Counts.start : Counts := ⟨fun _ => 0⟩

/-- The counting generators. -/
instance {V : Type} [PyArith V] : Rng Counts V where
  draw := fun id _ _ n w =>
    (.ok ((List.range n).map fun i => PyArith.ofRat ((100 * id + w.next id + i : Nat) : ℚ)),
      ⟨fun j => if j = id then w.next id + n else w.next j⟩)

instance {V : Type} [PyArith V] : LawfulRng Counts V where
  length := by
    intro id m ps n w w' xs h
    cases h
    simp
  commute := by
    intro i j m m' ps ps' n n' w w1 w2 xs ys hij h1 h2
    cases h1
    cases h2
    refine ⟨⟨fun k => if k = j then w.next j + n' else w.next k⟩, ?_, ?_⟩
    · show (Except.ok _, _) = (Except.ok _, _)
      simp [Ne.symm hij]
    · show (Except.ok _, _) = (Except.ok _, _)
      simp only [hij, if_false, Prod.mk.injEq, true_and, Counts.mk.injEq]
      funext k
      by_cases hk : k = i
      · subst hk; simp [hij]
      · by_cases hk' : k = j
        · subst hk'; simp [hk]
        · simp [hk, hk']

end Gerabaldi.Spec
