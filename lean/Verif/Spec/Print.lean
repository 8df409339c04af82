import Verif.Spec.Vtk
import Verif.Model.Print
/- Specification of the printout of a variable. -/
namespace QK.Spec
variable {α : Type}

/-- The line of one position: its indices separated by commas, and the value. -/
def printLine (x : Cell) (v : α) : List (Tok α) :=
  [.text "Index ("] ++ (x.map Tok.int).intersperse (.text ", ") ++ [.text ") : ", .num v, .text "\n"]

/-- A heading and one line for every position of a box, the last index varying fastest. -/
def printout (name : String) (B : Box) (u : Cell → α) : List (Tok α) :=
  [.text "Printing Variable '", .text name, .text "'\n"] ++ (cells B).flatMap fun x => printLine x (u x)

end QK.Spec
