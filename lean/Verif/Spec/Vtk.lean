import Verif.Spec.Manager
import Verif.Model.Vtk
/-
Specification of a VTK file: the order of the cells and the shape of the data blocks.
-/
namespace QK
open Spec

namespace Spec
/-- All cells of a box, the first coordinate varying fastest (the order of VTK structured points). -/
def vtkCells (M : Box) : List Cell := (cells M.reverse).map List.reverse

variable {α : Type}

/-- Values separated by blanks. -/
def valueToks (vs : List α) : List (Tok α) := vs.flatMap (fun v => [.num v, .text " "])

/-- The data block of one component of a variable. -/
def scalarBlock (name comp : String) (vs : List α) : List (Tok α) :=
  [.text "SCALARS ", .text name, .text ".", .text comp, .text " float 1\n", .text "LOOKUP_TABLE default\n"] ++
    valueToks vs ++ [.text "\n"]

/-- The geometry section: numbers of points, origin, spacing. -/
def geometry (n : Int × Int × Int) (o s : α × α × α) : List (Tok α) :=
  [.text "DATASET STRUCTURED_POINTS\n",
   .text "DIMENSIONS ", .int n.1, .text " ", .int n.2.1, .text " ", .int n.2.2, .text "\n",
   .text "ORIGIN ", .num o.1, .text " ", .num o.2.1, .text " ", .num o.2.2, .text "\n",
   .text "SPACING ", .num s.1, .text " ", .num s.2.1, .text " ", .num s.2.2, .text "\n"]

/-- A whole file: header, geometry, number of cells, data blocks. -/
def vtkFile (n : Int × Int × Int) (o s : α × α × α) (ncells : Int) (blocks : List (List (Tok α))) : List (Tok α) :=
  [.text "# vtk DataFile Version 2.0\n", .text "quikin output\n", .text "ASCII\n"] ++ geometry n o s ++
    [.text "CELL_DATA ", .int ncells, .text "\n"] ++ blocks.flatten

/-- Number of points along dimension `d` of a grid with cells `M`: one more than cells; 1 if there is no such dimension. -/
def points (M : Box) (d : Nat) : Int := if d < M.length then hi M d - lo M d + 1 else 1

/-- Number of cells of a VTK structured point set: `max (points - 1) 1` per dimension. -/
def impliedCells (n : Int × Int × Int) : Int := max (n.1 - 1) 1 * max (n.2.1 - 1) 1 * max (n.2.2 - 1) 1

end Spec

/-- Every stored chunk has 2 ghost layers around the grid's cells, `points` basis points and one entry per
component name (which is what the manager creates, C38). -/
def Mgr.Laid {α : Type} (m : Mgr α) : Prop :=
  ∀ id c, m.contents id = some c → c.Layout 2 m.grid.rng.dims [(0, id.basis.points), (0, (id.comps.length : Int))]

end QK
