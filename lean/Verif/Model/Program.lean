import Verif.Model.Solvers
import Verif.Model.Initial
import Verif.Model.Vtk
/-
Model of the example programs that couple several solvers (/repo/src/example/plasma/gem_challenge.cpp, which is what
/repo/src/main.cpp runs; the same loop without the periodic boundary condition is in
/repo/src/example/plasma/two_fluid_brio_wu.cpp and harris_current_sheet.cpp;
/repo/src/example/euler/sod_shock_tube.cpp is the single-fluid version).

Messages on the terminal and time measurement are left out here and added in `Model/Console.lean`. Solver objects of the source are configured once and
called in the loop; here a call takes the configuration as arguments.
-/
namespace QK

/-- gem_challenge.cpp:150-175: the vector of variable ids of one species: state, three stages, right-hand side. -/
structure Five where
  q : VarId
  q1 : VarId
  q2 : VarId
  q3 : VarId
  rhs : VarId

/-- The id at a position of that vector. gem_challenge.cpp:150-175. -/
def Five.at (v : Five) : Nat → VarId
  | 0 => v.q
  | 1 => v.q1
  | 2 => v.q2
  | 3 => v.q3
  | _ => v.rhs

/-- Configuration of the solvers of the plasma programs: dimensions with walls, dimensions of the periodic condition (`none`
if the program has no such solver), `_gamma` (euler), `_c` (maxwell), `_com` of both fluids (lorentz_force), `_multipliers`
(current_source). gem_challenge.cpp:177-451. -/
structure Plasma (α : Type) where
  e : Five
  i : Five
  f : Five
  walls : List Int
  periodic : Option (List Int)
  gamma : α
  c : α
  comE : α
  comI : α
  mults : List α

namespace Plasma
open SM Solve
variable {α : Type} [Arith α]

/-- `periodic_bcs[k].solve`, if the program has it. gem_challenge.cpp:478. -/
noncomputable def periodicBc (dims : Option (List Int)) (outs : List VarId) : SM (Mgr α) Unit :=
  match dims with
  | some ds => Solve.periodic ds outs
  | none => return ()

/-- gem_challenge.cpp:476-478: boundary conditions of stage `k` (two_fluid_brio_wu.cpp:398-399 and
harris_current_sheet.cpp:481-482 have the first two). -/
noncomputable def bcs (P : Plasma α) (k : Nat) : SM (Mgr α) Unit := do
  noSlip P.walls [P.e.at k, P.i.at k]
  conductingWall P.walls [P.f.at k]
  periodicBc P.periodic [P.e.at k, P.i.at k, P.f.at k]

/-- gem_challenge.cpp:479-485: reset and the six solvers for the right-hand sides. -/
noncomputable def rates (P : Plasma α) (k : Nat) : SM (Mgr α) Unit := do
  fill [P.e.rhs, P.i.rhs, P.f.rhs] (Arith.lit 0)
  euler P.gamma [P.e.at k] [P.e.rhs]
  lorentz P.comE [P.e.at k, P.f.at k] [P.e.rhs]
  euler P.gamma [P.i.at k] [P.i.rhs]
  lorentz P.comI [P.i.at k, P.f.at k] [P.i.rhs]
  maxwell P.c [P.f.at k] [P.f.rhs]
  current P.mults [P.e.at k, P.i.at k] [P.f.rhs]

/-- gem_challenge.cpp:487-489: the integrators. -/
noncomputable def advance (P : Plasma α) (al : Bool) (k : Nat) : SM (Mgr α) Unit := do
  ssprk3 al [P.e.q, P.e.rhs] [P.e.q1, P.e.q2, P.e.q3] k
  ssprk3 al [P.i.q, P.i.rhs] [P.i.q1, P.i.q2, P.i.q3] k
  ssprk3 al [P.f.q, P.f.rhs] [P.f.q1, P.f.q2, P.f.q3] k

/-- gem_challenge.cpp:475-490: stage `k`. -/
noncomputable def stage (P : Plasma α) (al : Bool) (k : Nat) : SM (Mgr α) Unit := do
  P.bcs k
  P.rates k
  P.advance al k

/-- gem_challenge.cpp:474-493: one time step; returns the new value of the local variable `time`. -/
noncomputable def step (P : Plasma α) (al : Bool) (timeDt time : α) : SM (Mgr α) α := do
  P.stage al 0
  P.stage al 1
  P.stage al 2
  swap [P.e.q, P.e.q3, P.i.q, P.i.q3, P.f.q, P.f.q3]
  modifyRes (fun m => .ok (m.setTime (time + timeDt)))
  return time + timeDt

end Plasma

/-- The program of sod_shock_tube.cpp: the vector of ids, wall and periodic dimensions, `_gamma`. -/
structure Sod (α : Type) where
  v : Five
  walls : List Int
  periodic : Option (List Int)
  gamma : α

namespace Sod
open SM Solve
variable {α : Type} [Arith α]

/-- sod_shock_tube.cpp:198-204: stage `k`. The periodic condition is applied if the mesh has more than one dimension. -/
noncomputable def stage (P : Sod α) (al : Bool) (k : Nat) : SM (Mgr α) Unit := do
  noSlip P.walls [P.v.at k]
  Plasma.periodicBc P.periodic [P.v.at k]
  fill [P.v.rhs] (Arith.lit 0)
  euler P.gamma [P.v.at k] [P.v.rhs]
  ssprk3 al [P.v.q, P.v.rhs] [P.v.q1, P.v.q2, P.v.q3] k

/-- sod_shock_tube.cpp:197-208: one time step. -/
noncomputable def step (P : Sod α) (al : Bool) (timeDt time : α) : SM (Mgr α) α := do
  P.stage al 0
  P.stage al 1
  P.stage al 2
  swap [P.v.q, P.v.q3]
  modifyRes (fun m => .ok (m.setTime (time + timeDt)))
  return time + timeDt

end Sod

/-- State of a program: the variable manager and the files written (frame number and contents). gem_challenge.cpp:453-467, variable_manager.cpp:82-107. -/
structure Run (α : Type) where
  mgr : Mgr α
  files : List (Nat × List (Tok α))

namespace Run
open SM
variable {α : Type}

/-- A call that only concerns the manager. Machinery of the model, no counterpart in the code. -/
def onMgr {β : Type} (x : SM (Mgr α) β) : SM (Run α) β := fun s =>
  match x s.mgr with
  | .ok b m => .ok b { s with mgr := m }
  | .throw msg m => .throw msg { s with mgr := m }
  | .ub w => .ub w
  | .diverge => .diverge

variable [Arith α]

/-- gem_challenge.cpp:461, 506: `write_vtk` for a frame. `canOpen` says whether the file of a frame can be created; what was
written before an exception stays in the file. -/
noncomputable def exportFrame (canOpen : Nat → Bool) (frame : Nat) (ids : List VarId) : SM (Run α) Unit := fun s =>
  match Vtk.write s.mgr (canOpen frame) ids [] with
  | .ok _ f => .ok () { s with files := s.files ++ [(frame, f)] }
  | .throw msg f => .throw msg { s with files := if canOpen frame then s.files ++ [(frame, f)] else s.files }
  | .ub w => .ub w
  | .diverge => .diverge

/-- gem_challenge.cpp:473-494: `n` time steps. -/
noncomputable def steps (step : α → SM (Mgr α) α) : Nat → α → SM (Mgr α) α
  | 0, time => return time
  | n + 1, time => do
    let time ← step time
    steps step n time

/-- gem_challenge.cpp:469-509: the frames `i + 1 …`, `n` of them. -/
noncomputable def frames (canOpen : Nat → Bool) (ids : List VarId) (step : α → SM (Mgr α) α) (numSteps : Nat) :
    Nat → Nat → α → SM (Run α) Unit
  | 0, _, _ => return ()
  | n + 1, i, time => do
    let time ← onMgr (steps step numSteps time)
    exportFrame canOpen (i + 1) ids
    frames canOpen ids step numSteps n (i + 1) time

/-- gem_challenge.cpp:457-509 (and the corresponding lines of the other programs): initial condition, frame 0, time loop. -/
noncomputable def main (ic : SM (Mgr α) Unit) (canOpen : Nat → Bool) (ids : List VarId) (step : α → α → SM (Mgr α) α)
    (timeDt : α) (numFrames numSteps : Nat) : SM (Run α) Unit := do
  onMgr ic
  exportFrame canOpen 0 ids
  onMgr (modifyRes (fun m => .ok (m.setTime (Arith.lit 0))))
  onMgr (modifyRes (fun m => .ok (m.setDt timeDt)))
  frames canOpen ids (step timeDt) numSteps numFrames 0 (Arith.lit 0)

end Run

/-- gem_challenge.cpp:45-89: physical and numerical constants, as computed. -/
structure GemConstants (α : Type) where
  e : α
  me : α
  eps0 : α
  c : α
  gamma : α
  Lx : α
  mi : α
  n0 : α
  n1 : α
  lam : α
  Te : α
  Ti : α
  B0 : α
  wci : α

namespace GemConstants
variable {α : Type} [Arith α]

/-- gem_challenge.cpp:45-89. -/
def make : GemConstants α :=
  let e : α := Arith.lit (160217662 / 10 ^ 27)
  let me : α := Arith.lit (910938356 / 10 ^ 39)
  let eps0 : α := Arith.lit (885418782 / 10 ^ 20)
  let mu0 : α := Arith.lit (125663706 / 10 ^ 14)
  let c : α := Arith.lit 299792458
  let gamma : α := Arith.lit 5 / Arith.lit 3
  let pi : α := Arith.lit (314159263 / 10 ^ 8)
  let di : α := Arith.lit 1
  let Lx := Arith.ofInt 1 * pi * di
  let mi := Arith.lit 25 * me
  let n0 := c * c * mi * eps0 / (e * e * di * di)
  let n1 := Arith.lit (1 / 5) * n0
  let lam := Arith.lit (1 / 2) * di
  let vse := Arith.lit (1 / 10) * c
  let Te := vse * vse * me / gamma
  let Ti := Te / Arith.lit (1 / 5)
  let P0 := n0 * (Te + Ti)
  let B0 := Arith.sqrt (Arith.ofInt 2 * mu0 * P0)
  { e, me, eps0, c, gamma, Lx, mi, n0, n1, lam, Te, Ti, B0, wci := e * B0 / mi }

end GemConstants

namespace GemChallenge
open SM Solve
variable {α : Type} [Arith α]

/-- gem_challenge.cpp:107-120. -/
def fluidComps : List String := ["rho", "px", "py", "pz", "e"]
/-- gem_challenge.cpp:114-120. -/
def fieldComps : List String := ["Ex", "Ey", "Ez", "Bx", "By", "Bz"]

/-- gem_challenge.cpp:148-175: the ids of one species, all with the volume-average basis. -/
def five (name : String) (comps : List String) : Five :=
  let b := Basis.volumeAverage
  ⟨⟨name, comps, b⟩, ⟨name ++ "_1", comps, b⟩, ⟨name ++ "_2", comps, b⟩, ⟨name ++ "_3", comps, b⟩, ⟨name ++ "_rhs", comps, b⟩⟩

/-- gem_challenge.cpp:150-157. -/
def electrons : Five := five "electrons" fluidComps
/-- gem_challenge.cpp:159-166. -/
def ions : Five := five "ions" fluidComps
/-- gem_challenge.cpp:168-175. -/
def fields : Five := five "field" fieldComps

/-- gem_challenge.cpp:95-106, 177-351, 361-451: the solvers. -/
def solvers (K : GemConstants α) (mults : List α) : Plasma α where
  e := electrons
  i := ions
  f := fields
  walls := [0]
  periodic := some [1]
  gamma := K.gamma
  c := K.c
  comE := -K.e / K.me
  comI := K.e / K.mi
  mults := mults

/-- gem_challenge.cpp:353-359: `ic.setup(…)`. (`setup` also stores `ue0`, `ui0`, which `solve` does not use.) -/
def initial (K : GemConstants α) : Init.Gem α where
  lambda := K.lam
  Lx := K.Lx
  n0 := K.n0
  n1 := K.n1
  gamma := K.gamma
  qe := -K.e
  qi := K.e
  me := K.me
  mi := K.mi
  Te := K.Te
  Ti := K.Ti
  B0 := K.B0

/-- gem_challenge.cpp:103-104: `time_dt`. -/
def timeDt (K : GemConstants α) (numFrames numSteps : Nat) : α :=
  Arith.lit 40 / K.wci / Arith.ofInt (numFrames * numSteps)

/-- gem_challenge.cpp:122-132: the grid. -/
def grid (K : GemConstants α) (nx : Int) : Res (Rectilinear α) := do
  let r ← Range.ofLengths 2 [nx, 2 * nx]
  Rectilinear.make r [-K.Lx / Arith.lit 2, -K.Lx] [K.Lx, Arith.ofInt 2 * K.Lx]

/-- gem_challenge.cpp:38-512. `al`: alignment of buffers (see `assumeAligned`); `canOpen`: which files can be created. The
function returns the outcome and, if there is one, the final state. -/
noncomputable def run (al : Bool) (canOpen : Nat → Bool) (nx : Int) (numFrames numSteps : Nat) : Res (SRes (Run α) Unit) := do
  let K : GemConstants α := GemConstants.make
  let g ← grid K nx
  let mults ← Source.currentSetup K.eps0 [-K.e, K.e] [K.me, K.mi]
  return Run.main (gem (initial K) [electrons.q, ions.q, fields.q]) canOpen [electrons.q, ions.q, fields.q]
    ((solvers K mults).step al) (timeDt K numFrames numSteps) numFrames numSteps ⟨Mgr.make g, []⟩

/-- gem_challenge.cpp:55-58: as configured. -/
noncomputable def gemChallenge (al : Bool) (canOpen : Nat → Bool) : Res (SRes (Run α) Unit) := run al canOpen 256 1000 125

end GemChallenge
end QK
