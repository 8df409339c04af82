import Mathlib.Algebra.BigOperators.Group.List.Basic
import Mathlib.Data.Int.Basic
import Mathlib.Data.List.Forall2
/-
Specification vocabulary for boxes of cells. Nothing here refers to the code.

A box is a list of half-open intervals `[lo, hi)`, one per dimension. A cell is a list of
coordinates. Row-major order: the last coordinate varies fastest.
-/
namespace QK.Spec

abbrev Box := List (Int × Int)
abbrev Cell := List Int

/-- `c` is a cell of `b`: same number of coordinates, each inside its interval. -/
def InBox (b : Box) (c : Cell) : Prop := List.Forall₂ (fun d x => d.1 ≤ x ∧ x < d.2) b c

/-- Every dimension has positive length. -/
def Pos (b : Box) : Prop := ∀ d ∈ b, d.1 < d.2

instance (b : Box) (c : Cell) : Decidable (InBox b c) := by unfold InBox; infer_instance
instance (b : Box) : Decidable (Pos b) := by unfold Pos; infer_instance

/-- Number of cells along each dimension. -/
def lengths (b : Box) : List Int := b.map (fun d => d.2 - d.1)

/-- Product of the lengths. -/
def boxVolume (b : Box) : Int := (lengths b).prod

/-- Row-major offset of a cell (Horner scheme): 0 for the first cell, the last coordinate counts
one, and so on. -/
def offsetFrom : Int → Box → Cell → Int
  | acc, d :: ds, x :: xs => offsetFrom (acc * (d.2 - d.1) + (x - d.1)) ds xs
  | acc, _, _ => acc

def offset (b : Box) (c : Cell) : Int := offsetFrom 0 b c

/-- `lo, lo+1, …, hi-1`. -/
def interval (lo hi : Int) : List Int := (List.range (hi - lo).toNat).map (fun k : Nat => lo + (k : Int))

/-- All cells of a box in row-major (lexicographic) order. -/
def cells : Box → List Cell
  | [] => [[]]
  | d :: ds => (interval d.1 d.2).flatMap (fun x => (cells ds).map (x :: ·))

/-- Strict lexicographic order on cells. -/
def LexLt : Cell → Cell → Prop
  | x :: xs, y :: ys => x < y ∨ (x = y ∧ LexLt xs ys)
  | _, _ => False

end QK.Spec
