import Verif.Model.Stage
import Verif.Model.BC
import Verif.Model.Manager
/-
Model of the `solve` functions that run on the variable manager
(/repo/src/solver/*.cpp). `ins` and `outs` are `_input_variable_ids` and `_output_variable_ids`.

The grid of the model's variable manager is rectilinear, so the `dynamic_cast` in `euler::solve` and
`maxwell::solve` succeeds. Kernels that access a chunk through a `__restrict__` pointer and write the same chunk
through another one have undefined behaviour (`aliased`). Strictly the pointers must both be dereferenced; with a
mesh without cells nothing would be. Parallel loops are run sequentially (for their other executions see C56).
-/
namespace QK
namespace Solve
open SM
variable {α : Type} [Arith α]

/-- `__restrict__` is violated: the array written is also read through another pointer. euler.cpp:57-58, maxwell.cpp:110-115 and the like. -/
def aliased (b : Bool) : Res Unit := if b then .ub "__restrict__ pointers to the same array" else .ok ()

/-- The value of `dt()`; undefined while it is not set. variable_manager.h:46, 56. -/
def dtOf (m : Mgr α) : Res α :=
  match m.dt with
  | some t => .ok t
  | none => .ub "read of uninitialised _dt"

/-- The loop over the chunks of the variable at `a` that runs a kernel on the chunks of the variables at `srcs`
and stores the result in the chunk of the variable at `b`. euler.cpp:286-288, maxwell.cpp:349-351 and the like. -/
noncomputable def kernelLoop (a b : Nat) (srcs : List Nat) (f : Mgr α → List (Chunk α) → Chunk α → Res (Chunk α)) :
    SM (Mgr α) Unit :=
  forChunks a (fun idx m => do
    let cs ← srcs.mapM (fun s => chunkAt m s idx)
    let c ← chunkAt m b idx
    let c' ← f m cs c
    setChunk m b idx c')

/-- euler.cpp:271-291 `euler::solve`. -/
noncomputable def euler (gamma : α) (ins outs : List VarId) : SM (Mgr α) Unit :=
  match ins, outs with
  | [iq], [ir] => do
    let a ← inputVar iq
    let b ← outputVar ir
    kernelLoop a b [a] (fun m cs r => do
      let _ ← dtOf m
      aliased (a == b)
      match cs with
      | [q] => Euler.solveMp gamma m.grid q r
      | _ => .ub "unreachable")
  | [_], _ => raise "qk::solver::euler::solve : Output must contain one variable (rhs)."
  | _, _ => raise "qk::solver::euler::solve : Input must contain one variable (q)."

/-- maxwell.cpp:335-354 `maxwell::solve`. -/
noncomputable def maxwell (c : α) (ins outs : List VarId) : SM (Mgr α) Unit :=
  match ins, outs with
  | [iq], [ir] => do
    let a ← inputVar iq
    let b ← outputVar ir
    kernelLoop a b [a] (fun m cs r => do
      aliased (a == b)
      match cs with
      | [q] => Maxwell.solveMp c m.grid q r
      | _ => .ub "unreachable")
  | [_], _ => raise "qk::solver::maxwell::solve : Output must contain one variable (rhs)."
  | _, _ => raise "qk::solver::maxwell::solve : Input must contain one variable (q)."

/-- lorentz_force.cpp:120-139 `lorentz_force::solve`. -/
noncomputable def lorentz (com : α) (ins outs : List VarId) : SM (Mgr α) Unit :=
  match ins, outs with
  | [ifl, ie], [ir] => do
    let a ← inputVar ifl
    let e ← inputVar ie
    let b ← outputVar ir
    kernelLoop a b [a, e] (fun _ cs r => do
      aliased (a == b || e == b)
      match cs with
      | [q, f] => Source.lorentz com q f r
      | _ => .ub "unreachable")
  | [_, _], _ => raise "qk::solver::lorentz_force::solve : Output must contain one variable (rhs)."
  | _, _ => raise "qk::solver::lorentz_force::solve : Input must contain two variables (fluid, field)."

/-- current_source.cpp:89-94, the loop over the fluids. -/
noncomputable def currentLoop (b : Nat) : List (α × VarId) → SM (Mgr α) Unit
  | [] => return ()
  | (mult, id) :: l => do
    let a ← inputVar id
    kernelLoop a b [a] (fun _ cs r =>
      match cs with
      | [q] => Source.current mult (if a == b then none else some q) r
      | _ => .ub "unreachable")
    currentLoop b l

/-- current_source.cpp:78-97 `current_source::solve`; `mults` is `_multipliers`. -/
noncomputable def current (mults : List α) (ins outs : List VarId) : SM (Mgr α) Unit :=
  if ins.length ≠ mults.length then
    raise "qk::solver::current_source::solve : Input must contain same number of variables (fluids) as charges and masses."
  else match outs with
  | [ir] => do
    let b ← outputVar ir
    currentLoop b (mults.zip ins)
  | _ => raise "qk::solver::current_source::solve : Output must contain one variable (rhs)."

/-- rk1.cpp:15-41 `rk1::solve`. -/
noncomputable def rk1 (ins outs : List VarId) (tag : Int) : SM (Mgr α) Unit :=
  match ins, outs with
  | [i0, ir], o1 :: _ => do
    let t ← dt
    let a0 ← inputVar i0
    let ar ← inputVar ir
    let a1 ← outputVar o1
    if tag = 0 then
      kernelLoop a0 a1 [a0, ar] (fun _ cs c1 => do
        aliased (a0 == a1 || ar == a1)
        match cs with
        | [c0, r] => RK.stage0 t c0 r c1
        | _ => .ub "unreachable")
    else forChunks a0 (fun _ m => .ok m)
  | [_, _], _ => raise "qk::solver::ssprk3::solve : Output must contain three variables (q_1)."
  | _, _ => raise "qk::solver::ssprk3::solve : Input must contain two variables (q_0, rhs)."

/-- lib/parallelization.h:5-7: `__builtin_assume_aligned(ptr, 64)` is undefined for a pointer that is not
64-byte aligned. `al` says whether all element buffers have this alignment; `std::vector<double>` only guarantees
the alignment of `operator new` (16 on common platforms). -/
def assumeAligned (al : Bool) : Res Unit := if al then .ok () else .ub "pointer is not aligned as assumed"

/-- ssprk3.cpp:42-51, the loop over the chunks; `a0 …` are the variables. -/
noncomputable def ssprk3Loop (al : Bool) (t : α) (a0 ar a1 a2 a3 : Nat) (tag : Int) : SM (Mgr α) Unit :=
  if tag = 0 then
    kernelLoop a0 a1 [a0, ar] (fun _ cs c1 => do
      assumeAligned al
      aliased (a0 == a1 || ar == a1)
      match cs with
      | [c0, r] => RK.stage0 t c0 r c1
      | _ => .ub "unreachable")
  else if tag = 1 then
    kernelLoop a0 a2 [a0, a1, ar] (fun _ cs c2 => do
      assumeAligned al
      aliased (a0 == a2 || a1 == a2 || ar == a2)
      match cs with
      | [c0, c1, r] => RK.stage1 t c0 c1 r c2
      | _ => .ub "unreachable")
  else if tag = 2 then
    kernelLoop a0 a3 [a0, a1, a2, ar] (fun _ cs c3 => do
      assumeAligned al
      aliased (a0 == a3 || a2 == a3 || ar == a3)
      match cs with
      | [c0, _, c2, r] => RK.stage2 t c0 c2 r c3
      | _ => .ub "unreachable")
  else forChunks a0 (fun _ m => .ok m)

/-- ssprk3.cpp:15-53 `ssprk3::solve`. -/
noncomputable def ssprk3 (al : Bool) (ins outs : List VarId) (tag : Int) : SM (Mgr α) Unit :=
  match ins, outs with
  | [i0, ir], o1 :: o2 :: o3 :: _ => do
    let t ← dt
    let a0 ← inputVar i0
    let ar ← inputVar ir
    let a1 ← outputVar o1
    let a2 ← outputVar o2
    let a3 ← outputVar o3
    ssprk3Loop al t a0 ar a1 a2 a3 tag
  | [_, _], _ => raise "qk::solver::ssprk3::solve : Output must contain three variables (q_1, q_2, q_3)."
  | _, _ => raise "qk::solver::ssprk3::solve : Input must contain two variables (q_0, rhs)."

/-- bc_periodic.cpp:17-38 `bc_periodic::solve`. -/
noncomputable def periodic (dims : List Int) (outs : List VarId) : SM (Mgr α) Unit := eachOutput (BC.periodic dims) outs

/-- bc_copy_out.cpp:17-67 `bc_copy_out::solve`. -/
noncomputable def copyOut (dims : List Int) (outs : List VarId) : SM (Mgr α) Unit := eachOutput (BC.copyOut dims) outs

/-- bc_no_slip.cpp:17-83, bc_free_slip.cpp:17-83 and bc_conducting_wall.cpp:17-83 `solve`. -/
noncomputable def noSlip (dims : List Int) (outs : List VarId) : SM (Mgr α) Unit :=
  eachOutput (BC.noSlip (· * ·) (Arith.lit (-1)) dims) outs
/-- bc_free_slip.cpp:17-83. -/
noncomputable def freeSlip (dims : List Int) (outs : List VarId) : SM (Mgr α) Unit :=
  eachOutput (BC.freeSlip (· * ·) (Arith.lit (-1)) dims) outs
/-- bc_conducting_wall.cpp:17-83. -/
noncomputable def conductingWall (dims : List Int) (outs : List VarId) : SM (Mgr α) Unit :=
  eachOutput (BC.conductingWall (· * ·) (Arith.lit (-1)) dims) outs

/-- example/maxwell/gaussian_pulse.cpp:176-180 (wave_1D.cpp likewise), one stage: boundary condition on `qk`, reset of
`rhs`, right-hand side, stage `k` of the integrator. `flux` is the solver that computes the right-hand side. -/
noncomputable def stage (al : Bool) (flux : List VarId → List VarId → SM (Mgr α) Unit) (dims : List Int)
    (q rhs q1 q2 q3 : VarId) (qk : VarId) (k : Int) : SM (Mgr α) Unit := do
  periodic dims [qk]
  fill [rhs] (Arith.lit 0)
  flux [qk] [rhs]
  ssprk3 al [q, rhs] [q1, q2, q3] k

/-- gaussian_pulse.cpp:175-184, one time step; returns the new value of the local variable `time`. -/
noncomputable def step (al : Bool) (flux : List VarId → List VarId → SM (Mgr α) Unit) (dims : List Int)
    (q rhs q1 q2 q3 : VarId) (timeDt time : α) : SM (Mgr α) α := do
  stage al flux dims q rhs q1 q2 q3 q 0
  stage al flux dims q rhs q1 q2 q3 q1 1
  stage al flux dims q rhs q1 q2 q3 q2 2
  swap [q, q3]
  modifyRes (fun m => .ok (m.setTime (time + timeDt)))
  return time + timeDt

/-- gaussian_pulse.cpp:173-184, `n` time steps (writing files does not change the manager). -/
noncomputable def steps (al : Bool) (flux : List VarId → List VarId → SM (Mgr α) Unit) (dims : List Int)
    (q rhs q1 q2 q3 : VarId) (timeDt : α) : Nat → α → SM (Mgr α) α
  | 0, time => return time
  | n + 1, time => do
    let time ← step al flux dims q rhs q1 q2 q3 timeDt time
    steps al flux dims q rhs q1 q2 q3 timeDt n time

end Solve
end QK
