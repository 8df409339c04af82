import Verif.Model.Container
import Verif.Spec.Box
/- Specification vocabulary: the contents of a container, by cell. -/
namespace QK
open Spec

/-- The element a container stores for a cell: the one at the row-major offset of the cell in the
container's range. -/
def IFace.val {α : Type} (f : IFace α) (c : Cell) : Option α := f.data[(offset f.rng.dims c).toNat]?

end QK
