import Mathlib.Logic.Relation
import Verif.Model.Par
/- What it means for a parallel loop to be correct. -/
namespace QK
open Prog

/-- Every parallel execution of the iterations `ps` from memory `m`, for every interleaving of their single
reads and writes, stays free of undefined accesses and data races, can always go on until all iterations are
finished, cannot go on forever, and ends with memory `m'`. -/
structure ParallelSafe {α : Type} (ps : List (Prog α Unit)) (m m' : Mem α) : Prop where
  defined : ∀ ps' m1, Relation.ReflTransGen Step (ps, m) (ps', m1) → ¬ Bad ps' m1
  raceFree : ∀ ps' m1, Relation.ReflTransGen Step (ps, m) (ps', m1) → ¬ Race ps'
  result : ∀ ps' m1, Relation.ReflTransGen Step (ps, m) (ps', m1) → Done ps' → m1 = m'
  progress : ∀ ps' m1, Relation.ReflTransGen Step (ps, m) (ps', m1) → ¬ Done ps' → ∃ c, Step (ps', m1) c
  terminates : Acc (fun x y => Step y x) (ps, m)

end QK
