import Mathlib.Logic.Relation
import Verif.Model.Advection
/-
The solvers with parallel loops, run by several threads. The definitions are those of Model/FiniteVolume.lean, Model/Stage.lean,
Model/Solvers.lean and Model/Advection.lean, with a schedule in place of the sequential run of each loop that has an OpenMP pragma: euler.cpp:60,
maxwell.cpp:107, 185, 264, ssprk3.cpp:64, 82, 101, ssprk2_advection.cpp:42. (The loops of lorentz_force.cpp:93 and current_source.cpp:62 are
in functions without callers, Model/Unused.lean.) Each parallel loop ends with a barrier, so two of them never run at the same time.
-/
namespace QK

/-- What an execution of a parallel loop may come to: all iterations are finished, or it reached a state in which an access is undefined or in
which two iterations race (undefined behaviour in C++ and OpenMP). Machinery of the model, no counterpart in the code. -/
inductive ParRun {α : Type} (ps : List (Prog α Unit)) (m : Mem α) : Res (Mem α) → Prop
  | ends {ps' : List (Prog α Unit)} {m' : Mem α} (run : Relation.ReflTransGen Prog.Step (ps, m) (ps', m')) (done : Prog.Done ps') : ParRun ps m (.ok m')
  | undefined {ps' : List (Prog α Unit)} {m' : Mem α} (why : String) (run : Relation.ReflTransGen Prog.Step (ps, m) (ps', m'))
      (bad : Prog.Bad ps' m' ∨ Prog.Race ps') : ParRun ps m (.ub why)

/-- How the threads run the parallel loops of one call: the outcome of the loop with this number (the direction of the mesh), with these iterations
on this memory. A variable has one chunk (C19), so a call runs each loop once. Machinery of the model, no counterpart in the code. -/
abbrev Schedule (α : Type) := Nat → List (Prog α Unit) → Mem α → Res (Mem α)

/-- The outcomes are those of parallel executions. Machinery of the model, no counterpart in the code. -/
def Schedule.Legal {α : Type} (s : Schedule α) : Prop := ∀ loop ps m, ParRun ps m (s loop ps m)

/-- One thread that takes the iterations in order. Machinery of the model, no counterpart in the code. -/
def Schedule.sequential {α : Type} : Schedule α := fun _ => Prog.runAll

namespace FV
variable {α : Type} [Arith α]

/-- `FV.runOn` with a schedule. Machinery of the model, no counterpart in the code. -/
def runOnWith (s : List (Prog α Unit) → Mem α → Res (Mem α)) (ps : List (Prog α Unit)) (q rhs : Chunk α) : Res (Chunk α) := do
  let m ← s ps (Mem.of [q.arr.data, rhs.arr.data])
  let data ← m.extract 1 rhs.arr.data.length
  return { rhs with arr := { rhs.arr with data := data } }

/-- `FV.sweepMp` with a schedule. Machinery of the model, no counterpart in the code. -/
def sweepMpWith (s : Schedule α) (n : Nat) (flux : Flux α) (grid : Rectilinear α) (q rhs : Chunk α) (dim : Nat) : Res (Chunk α) := do
  let ps ← itersMp n flux grid q dim
  runOnWith (s dim) ps q rhs

end FV

/-- euler.cpp:29-212 `solve_HLL_mp`. -/
def Euler.solveMpWith {α : Type} [Arith α] (s : Schedule α) (gamma : α) (grid : Rectilinear α) (q rhs : Chunk α) : Res (Chunk α) :=
  (List.range grid.rng.numDims).foldlM (fun (r : Chunk α) (dim : Nat) => FV.sweepMpWith s 5 (hll gamma dim) grid q r dim) rhs

/-- maxwell.cpp:78-332 `solve_rusanov_mp`. -/
def Maxwell.solveMpWith {α : Type} [Arith α] (s : Schedule α) (c : α) (grid : Rectilinear α) (q rhs : Chunk α) : Res (Chunk α) :=
  (List.range (min grid.rng.numDims 3)).foldlM (fun (r : Chunk α) (dim : Nat) => FV.sweepMpWith s 6 (rusanov c dim) grid q r dim) rhs

namespace RK
variable {α : Type} [Arith α]

/-- `RK.runOut` with a schedule. Machinery of the model, no counterpart in the code. -/
def runOutWith (s : Schedule α) (ps : List (Prog α Unit)) (ins : List (Chunk α)) (out : Chunk α) : Res (Chunk α) := do
  let m ← s 0 ps (Mem.of (ins.map (fun c => c.arr.data) ++ [out.arr.data]))
  let data ← m.extract ins.length out.arr.data.length
  return { out with arr := { out.arr with data := data } }

/-- ssprk3.cpp:55-68 `stage_0`. -/
def stage0With (s : Schedule α) (dt : α) (q0 rhs q1 : Chunk α) : Res (Chunk α) := runOutWith s ((points rhs).map (iter0 dt)) [q0, rhs] q1

/-- ssprk3.cpp:70-86 `stage_1`. -/
def stage1With (s : Schedule α) (dt : α) (q0 q1 rhs q2 : Chunk α) : Res (Chunk α) := runOutWith s ((points rhs).map (iter1 dt)) [q0, q1, rhs] q2

/-- ssprk3.cpp:88-105 `stage_2`. -/
def stage2With (s : Schedule α) (dt : α) (q0 q2 rhs q3 : Chunk α) : Res (Chunk α) := runOutWith s ((points rhs).map (iter2 dt)) [q0, q2, rhs] q3

end RK

namespace Advection
variable {α : Type} [Arith α]

/-- ssprk2_advection.cpp:69-90 `advection_inout`. -/
def inoutWith (s : Schedule α) (dt : α) (velocity : List α) (grid : Rectilinear α) (a b : Chunk α) : Res (Chunk α) :=
  (List.range grid.rng.numDims).foldlM (fun b dim => do
    let ps ← sweep dt velocity grid a dim
    FV.runOnWith (s dim) ps a b) b

/-- ssprk2_advection.cpp:208-218 `stage_0`. -/
def stage0With (s : Schedule α) (dt : α) (velocity : List α) (grid : Rectilinear α) (n0 n1 : Chunk α) : Res (Chunk α) := do
  let a ← IFace.fullCopy n0.arr n1.arr
  inoutWith s dt velocity grid n0 { n1 with arr := a }

/-- ssprk2_advection.cpp:254-271 `stage_1` (the average at 267-269 is an ordinary loop). -/
def stage1With (s : Schedule α) (dt : α) (velocity : List α) (grid : Rectilinear α) (n0 n1 n2 : Chunk α) : Res (Chunk α) := do
  let n2 ← RK.runOut ((RK.points n0).map average) [n0, n1] n2
  inoutWith s (Arith.lit (1 / 2) * dt) velocity grid n1 n2

end Advection

namespace Solve
open SM
variable {α : Type} [Arith α]

/-- euler.cpp:271-291 `euler::solve`. -/
noncomputable def eulerWith (s : Schedule α) (gamma : α) (ins outs : List VarId) : SM (Mgr α) Unit :=
  match ins, outs with
  | [iq], [ir] => do
    let a ← inputVar iq
    let b ← outputVar ir
    kernelLoop a b [a] (fun m cs r => do
      let _ ← dtOf m
      aliased (a == b)
      match cs with
      | [q] => Euler.solveMpWith s gamma m.grid q r
      | _ => .ub "unreachable")
  | [_], _ => raise "qk::solver::euler::solve : Output must contain one variable (rhs)."
  | _, _ => raise "qk::solver::euler::solve : Input must contain one variable (q)."

/-- maxwell.cpp:335-354 `maxwell::solve`. -/
noncomputable def maxwellWith (s : Schedule α) (c : α) (ins outs : List VarId) : SM (Mgr α) Unit :=
  match ins, outs with
  | [iq], [ir] => do
    let a ← inputVar iq
    let b ← outputVar ir
    kernelLoop a b [a] (fun m cs r => do
      aliased (a == b)
      match cs with
      | [q] => Maxwell.solveMpWith s c m.grid q r
      | _ => .ub "unreachable")
  | [_], _ => raise "qk::solver::maxwell::solve : Output must contain one variable (rhs)."
  | _, _ => raise "qk::solver::maxwell::solve : Input must contain one variable (q)."

/-- ssprk3.cpp:42-51, the loop over the chunks. -/
noncomputable def ssprk3LoopWith (s : Schedule α) (al : Bool) (t : α) (a0 ar a1 a2 a3 : Nat) (tag : Int) : SM (Mgr α) Unit :=
  if tag = 0 then
    kernelLoop a0 a1 [a0, ar] (fun _ cs c1 => do
      assumeAligned al
      aliased (a0 == a1 || ar == a1)
      match cs with
      | [c0, r] => RK.stage0With s t c0 r c1
      | _ => .ub "unreachable")
  else if tag = 1 then
    kernelLoop a0 a2 [a0, a1, ar] (fun _ cs c2 => do
      assumeAligned al
      aliased (a0 == a2 || a1 == a2 || ar == a2)
      match cs with
      | [c0, c1, r] => RK.stage1With s t c0 c1 r c2
      | _ => .ub "unreachable")
  else if tag = 2 then
    kernelLoop a0 a3 [a0, a1, a2, ar] (fun _ cs c3 => do
      assumeAligned al
      aliased (a0 == a3 || a2 == a3 || ar == a3)
      match cs with
      | [c0, _, c2, r] => RK.stage2With s t c0 c2 r c3
      | _ => .ub "unreachable")
  else forChunks a0 (fun _ m => .ok m)

/-- ssprk3.cpp:15-53 `ssprk3::solve`. -/
noncomputable def ssprk3With (s : Schedule α) (al : Bool) (ins outs : List VarId) (tag : Int) : SM (Mgr α) Unit :=
  match ins, outs with
  | [i0, ir], o1 :: o2 :: o3 :: _ => do
    let t ← dt
    let a0 ← inputVar i0
    let ar ← inputVar ir
    let a1 ← outputVar o1
    let a2 ← outputVar o2
    let a3 ← outputVar o3
    ssprk3LoopWith s al t a0 ar a1 a2 a3 tag
  | [_, _], _ => raise "qk::solver::ssprk3::solve : Output must contain three variables (q_1, q_2, q_3)."
  | _, _ => raise "qk::solver::ssprk3::solve : Input must contain two variables (q_0, rhs)."

/-- ssprk2_advection.cpp:183-204, the loops over the chunks. -/
noncomputable def advectionLoopWith (s : Schedule α) (velocity : List α) (t : α) (a0 a1 a2 : Nat) (tag : Int) : SM (Mgr α) Unit :=
  if tag = 0 then
    kernelLoop a0 a1 [a0] (fun m cs c1 => do
      aliased (a0 == a1)
      match cs with
      | [c0] => Advection.stage0With s t velocity m.grid c0 c1
      | _ => .ub "unreachable")
  else if tag = 1 then
    kernelLoop a0 a2 [a0, a1] (fun m cs c2 => do
      aliased (a1 == a2)
      match cs with
      | [c0, c1] => Advection.stage1With s t velocity m.grid c0 c1 c2
      | _ => .ub "unreachable")
  else return ()

/-- ssprk2_advection.cpp:161-206 `ssprk2_advection::solve`. -/
noncomputable def advectionWith (s : Schedule α) (velocity : List α) (ins outs : List VarId) (tag : Int) : SM (Mgr α) Unit :=
  match ins, outs with
  | [i0], [o1, o2] => do
    let _ ← time
    let t ← dt
    let a0 ← inputVar i0
    let a1 ← outputVar o1
    let a2 ← outputVar o2
    advectionLoopWith s velocity t a0 a1 a2 tag
  | [_], _ => raise "qk::solver::ssprk2_advection::solve : Output must contain two variables."
  | _, _ => raise "qk::solver::ssprk2_advection::solve : Input must contain one variable."

end Solve
end QK
