import Verif.Model.Vtk
/-
Model of the printing solver (/repo/src/solver/print.cpp). What is written to `std::cout` is the list of items streamed into
it, as for files (Model/Vtk.lean).
-/
namespace QK

/-- A manager and what has been written to `std::cout`. print.cpp:17. -/
structure Console (α : Type) where
  mgr : Mgr α
  out : List (Tok α)

namespace Print
open SM
variable {α : Type}

/-- Code that works on the manager alone. Machinery of the model, no counterpart in the code. -/
def onMgr {β : Type} (x : SM (Mgr α) β) : SM (Console α) β := fun s =>
  match x s.mgr with
  | .ok b m => .ok b { s with mgr := m }
  | .throw e m => .throw e { s with mgr := m }
  | .ub w => .ub w
  | .diverge => .diverge

/-- print.cpp:32-37, the iterations `i = k, …, n - 1`: the index, and a comma unless it is the last. -/
def indexToks (idx : Indexer) (n : Nat) : Nat → Res (List (Tok α))
  | 0 => .ok []
  | r + 1 => do
    let i := n - (r + 1)
    let x ← vget idx.index i
    let rest ← indexToks idx n r
    return (if i + 1 ≠ n then [.int x, .text ", "] else [.int x]) ++ rest

/-- print.cpp:27-40, the lines of one chunk. -/
noncomputable def chunk (c : Chunk α) (out : List (Tok α)) : Res (List (Tok α)) :=
  (c.arr.indexer c.internal).forEach (fun idx out => do
    let ix ← indexToks idx idx.sup.numDims idx.sup.numDims
    let v ← c.arr.get idx
    return out ++ ([.text "Index ("] ++ ix ++ [.text ") : ", .num v, .text "\n"])) out

/-- print.cpp:22-42, the lines of the variable stored at `a`. -/
noncomputable def var (a : Nat) : SM (Console α) Unit :=
  modifyRes (fun s => do
    let v ← vget s.mgr.heap a
    let out ← (v.chunks.indexer v.chunks.rng).forEach (fun cidx out => do
      let c ← v.chunks.get cidx
      chunk c out) (s.out ++ [.text "Printing Variable '", .text v.name, .text "'\n"])
    return { s with out := out })

/-- print.cpp:14-45 `print::solve`: the *input* ids go to `output_variable`. The tag is not used. -/
noncomputable def solve [Arith α] : List VarId → SM (Console α) Unit
  | [] => return ()
  | id :: ids => do
    let a ← onMgr (Solve.outputVar id)
    var a
    solve ids

end Print
end QK
