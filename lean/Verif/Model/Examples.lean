import Verif.Model.Program
import Verif.Model.Advection
/-
Model of the other example programs: /repo/src/example/plasma/two_fluid_brio_wu.cpp, plasma/harris_current_sheet.cpp,
euler/sod_shock_tube.cpp, maxwell/wave_1D.cpp, maxwell/gaussian_pulse.cpp, advection/advect_gaussian.cpp.

As in `Model/Program.lean`, messages on the terminal and time measurement are left out (they are in `Model/Console.lean`), and a call takes the configuration of its
solver as arguments. Numbers of cells, frames and steps are parameters; the values of the source are used in the definitions named
after the source functions.
-/
namespace QK

/-- The programs of maxwell/wave_1D.cpp and maxwell/gaussian_pulse.cpp: the ids, the periodic dimensions, `_c`. -/
structure Light (α : Type) where
  v : Five
  periodic : List Int
  c : α

namespace Light
open SM Solve
variable {α : Type} [Arith α]

/-- wave_1D.cpp:187-190, gaussian_pulse.cpp:180-183: stage `k`. -/
noncomputable def stage (P : Light α) (al : Bool) (k : Nat) : SM (Mgr α) Unit := do
  Solve.periodic P.periodic [P.v.at k]
  fill [P.v.rhs] (Arith.lit 0)
  maxwell P.c [P.v.at k] [P.v.rhs]
  ssprk3 al [P.v.q, P.v.rhs] [P.v.q1, P.v.q2, P.v.q3] k

/-- wave_1D.cpp:185-194, gaussian_pulse.cpp:178-187: one time step. -/
noncomputable def step (P : Light α) (al : Bool) (timeDt time : α) : SM (Mgr α) α := do
  P.stage al 0
  P.stage al 1
  P.stage al 2
  swap [P.v.q, P.v.q3]
  modifyRes (fun m => .ok (m.setTime (time + timeDt)))
  return time + timeDt

end Light

namespace TwoFluidBrioWu
open SM Solve GemChallenge
variable {α : Type} [Arith α]

/-- two_fluid_brio_wu.cpp:39-45: constants. -/
def c : α := Arith.lit 10
/-- two_fluid_brio_wu.cpp:40. -/
def eps0 : α := Arith.lit (1 / 10 ^ 6)
/-- two_fluid_brio_wu.cpp:41. -/
def gamma : α := Arith.lit 2
/-- two_fluid_brio_wu.cpp:42. -/
def qe : α := Arith.lit (-1)
/-- two_fluid_brio_wu.cpp:43. -/
def qi : α := Arith.lit 1
/-- two_fluid_brio_wu.cpp:44. -/
def me : α := Arith.lit (1 / 10)
/-- two_fluid_brio_wu.cpp:45. -/
def mi : α := Arith.lit 1

/-- two_fluid_brio_wu.cpp:65-80, 94-296, 308-367: the solvers (same ids as in gem_challenge.cpp, no periodic condition).
`lorentz_force::setup` stores the charge divided by the mass. -/
def solvers (mults : List α) : Plasma α where
  e := electrons
  i := ions
  f := fields
  walls := [0]
  periodic := none
  gamma := gamma
  c := c
  comE := qe / me
  comI := qi / mi
  mults := mults

/-- two_fluid_brio_wu.cpp:46-51, 298-305: `ic.setup(…)`. -/
def initial : Init.BrioWu α where
  gamma := gamma
  me := me
  mi := mi
  nl := Arith.lit 1
  nr := Arith.lit (1 / 8)
  Pl := Arith.lit 1
  Pr := Arith.lit (1 / 10)
  Bx := Arith.lit (3 / 4)
  By := Arith.lit 1

/-- two_fluid_brio_wu.cpp:83-92: the grid. -/
def grid (nx : Int) : Res (Rectilinear α) := do
  let r ← Range.ofLengths 1 [nx]
  Rectilinear.make r [Arith.lit (-1 / 2)] [Arith.lit 1]

/-- two_fluid_brio_wu.cpp:61-64: `time_dt`. -/
def timeDt (numFrames numSteps : Nat) : α := Arith.lit (1 / 10) / Arith.ofInt (numFrames * numSteps)

/-- two_fluid_brio_wu.cpp:35-432. -/
noncomputable def run (al : Bool) (canOpen : Nat → Bool) (nx : Int) (numFrames numSteps : Nat) : Res (SRes (Run α) Unit) := do
  let g ← grid nx
  let mults ← Source.currentSetup (eps0 : α) [qe, qi] [me, mi]
  return Run.main (brioWu initial [electrons.q, ions.q, fields.q]) canOpen [electrons.q, ions.q, fields.q]
    ((solvers mults).step al) (timeDt numFrames numSteps) numFrames numSteps ⟨Mgr.make g, []⟩

/-- two_fluid_brio_wu.cpp:61-62, 86: as configured. -/
noncomputable def twoFluidBrioWu (al : Bool) (canOpen : Nat → Bool) : Res (SRes (Run α) Unit) := run al canOpen 100 100 10

end TwoFluidBrioWu

namespace HarrisCurrentSheet
open SM Solve GemChallenge
variable {α : Type} [Arith α]

/-- harris_current_sheet.cpp:45-87: the constants are those of gem_challenge.cpp except for `Lx`. -/
def constants : GemConstants α :=
  { (GemConstants.make : GemConstants α) with Lx := Arith.ofInt 4 * Arith.lit (314159263 / 10 ^ 8) * Arith.lit 1 }

/-- harris_current_sheet.cpp:94-123, 150-352, 363-422: the solvers. -/
def solvers (K : GemConstants α) (mults : List α) : Plasma α := { GemChallenge.solvers K mults with periodic := none }

/-- harris_current_sheet.cpp:125-134: the grid. -/
def grid (K : GemConstants α) (nx : Int) : Res (Rectilinear α) := do
  let r ← Range.ofLengths 1 [nx]
  Rectilinear.make r [-K.Lx / Arith.lit 2] [K.Lx]

/-- harris_current_sheet.cpp:102-105: `time_dt`. -/
def timeDt (K : GemConstants α) (numFrames numSteps : Nat) : α := Arith.lit 1 / K.wci / Arith.ofInt (numFrames * numSteps)

/-- harris_current_sheet.cpp:38-528. The initial condition is the one of gem_challenge.cpp (354-361), on a mesh of one dimension. -/
noncomputable def run (al : Bool) (canOpen : Nat → Bool) (nx : Int) (numFrames numSteps : Nat) : Res (SRes (Run α) Unit) := do
  let K : GemConstants α := constants
  let g ← grid K nx
  let mults ← Source.currentSetup K.eps0 [-K.e, K.e] [K.me, K.mi]
  return Run.main (gem (initial K) [electrons.q, ions.q, fields.q]) canOpen [electrons.q, ions.q, fields.q]
    ((solvers K mults).step al) (timeDt K numFrames numSteps) numFrames numSteps ⟨Mgr.make g, []⟩

/-- harris_current_sheet.cpp:92, 102-103: as configured. -/
noncomputable def harrisCurrentSheet (al : Bool) (canOpen : Nat → Bool) : Res (SRes (Run α) Unit) := run al canOpen 400 100 100

end HarrisCurrentSheet

namespace SodShockTube
open SM Solve
variable {α : Type} [Arith α]

/-- The ids of the programs with one variable: sod_shock_tube.cpp:76-80, wave_1D.cpp:85-89, gaussian_pulse.cpp:78-82. -/
def solo (name : String) (comps : List String) : Five :=
  let b := Basis.volumeAverage
  ⟨⟨name, comps, b⟩, ⟨name ++ "_1", comps, b⟩, ⟨name ++ "_2", comps, b⟩, ⟨name ++ "_3", comps, b⟩, ⟨"rhs", comps, b⟩⟩

/-- sod_shock_tube.cpp:76-80. -/
def fluid : Five := solo "fluid" GemChallenge.fluidComps

/-- sod_shock_tube.cpp:41, 55-59, 82-113, 120-170: the solvers; `periodic_dims` are all dimensions but the first, and the periodic
condition is applied in two dimensions or more (199-201). -/
def solvers (numDims : Nat) : Sod α where
  v := fluid
  walls := [0]
  periodic := if 1 < numDims then some ((List.range (numDims - 1)).map fun i : Nat => (i : Int) + 1) else none
  gamma := Arith.lit (7 / 5)

/-- shock_tube.cpp:15-22: the constructor (the program does not call `setup`). -/
def initial : Init.ShockTube α where
  rhoJump := Arith.lit (1 / 8)
  pJump := Arith.lit (1 / 10)
  gamma := Arith.lit (7 / 5)

/-- sod_shock_tube.cpp:64-72: the grid, as configured for two dimensions. -/
def grid (nx ny : Int) : Res (Rectilinear α) := do
  let r ← Range.ofLengths 2 [nx, ny, 2]
  Rectilinear.make r [Arith.lit (-1 / 2), Arith.lit (-1 / 2), Arith.lit (-1 / 2)] [Arith.lit 1, Arith.lit 1, Arith.lit 1]

/-- sod_shock_tube.cpp:48: `time_dt`. -/
def timeDt (numFrames numSteps : Nat) : α := Arith.lit (1 / 2) / Arith.ofInt (numFrames * numSteps)

/-- sod_shock_tube.cpp:37-227. -/
noncomputable def run (al : Bool) (canOpen : Nat → Bool) (nx ny : Int) (numFrames numSteps : Nat) : Res (SRes (Run α) Unit) := do
  let g ← grid nx ny
  return Run.main (shockTube initial [fluid.q]) canOpen [fluid.q] ((solvers 2).step al) (timeDt numFrames numSteps) numFrames numSteps
    ⟨Mgr.make g, []⟩

/-- sod_shock_tube.cpp:44-46, 66: as configured. -/
noncomputable def sodShockTube (al : Bool) (canOpen : Nat → Bool) : Res (SRes (Run α) Unit) := run al canOpen 500 2 100 5

end SodShockTube

namespace Wave1D
open SM Solve
variable {α : Type} [Arith α]

/-- wave_1D.cpp:85-89, gaussian_pulse.cpp:78-82. -/
def field : Five := SodShockTube.solo "field" GemChallenge.fieldComps

/-- wave_1D.cpp:39, 54-56, 91-121, 129-159: the solvers. -/
def solvers : Light α where
  v := field
  periodic := [0, 1, 2]
  c := Arith.ofInt 1

/-- wave_1D.cpp:39-41, 123-127: `ic.setup(num_dims-1, c, k, Bx, By, Bz)`. -/
def initial : Init.Wave α where
  dim := 2
  c := Arith.ofInt 1
  k := Arith.ofInt 2 * Arith.lit (314159263 / 10 ^ 8)
  Bx := Arith.ofInt 1
  By := Arith.ofInt 1
  Bz := Arith.ofInt 1

/-- wave_1D.cpp:75-80: the grid (`num_dims` is 3). -/
def grid (nx ny nz : Int) : Res (Rectilinear α) := do
  let r ← Range.ofLengths 3 [nx, ny, nz]
  Rectilinear.make r [Arith.lit (-1 / 2), Arith.lit (-1 / 2), Arith.lit (-1 / 2)] [Arith.lit 1, Arith.lit 1, Arith.lit 1]

/-- wave_1D.cpp:45: `time_dt`. -/
def timeDt (numFrames numSteps : Nat) : α := Arith.lit 1 / Arith.ofInt (numFrames * numSteps)

/-- wave_1D.cpp:34-213. -/
noncomputable def run (al : Bool) (canOpen : Nat → Bool) (nx ny nz : Int) (numFrames numSteps : Nat) : Res (SRes (Run α) Unit) := do
  let g ← grid nx ny nz
  return Run.main (wave initial [field.q]) canOpen [field.q] ((solvers).step al) (timeDt numFrames numSteps) numFrames numSteps
    ⟨Mgr.make g, []⟩

/-- wave_1D.cpp:42-43, 76: as configured. -/
noncomputable def wave1D (al : Bool) (canOpen : Nat → Bool) : Res (SRes (Run α) Unit) := run al canOpen 2 2 128 100 10

end Wave1D

namespace GaussianPulse
open SM Solve
variable {α : Type} [Arith α]

/-- gaussian_pulse.cpp:39, 53-55, 84-114, 122-152: the solvers (same ids as wave_1D.cpp, one dimension). -/
def solvers : Light α where
  v := Wave1D.field
  periodic := [0]
  c := Arith.ofInt 5

/-- gaussian_pulse.cpp:62-67: the grid. -/
def grid (nx : Int) : Res (Rectilinear α) := do
  let r ← Range.ofLengths 1 [nx]
  Rectilinear.make r [Arith.lit (-1 / 2)] [Arith.lit 1]

/-- gaussian_pulse.cpp:34-206; `time_dt` (43) as in wave_1D.cpp, `ic.setup(1., 0.01)` (119). -/
noncomputable def run (al : Bool) (canOpen : Nat → Bool) (nx : Int) (numFrames numSteps : Nat) : Res (SRes (Run α) Unit) := do
  let g ← grid nx
  return Run.main (pulse (Arith.lit 1) (Arith.lit (1 / 100)) [Wave1D.field.q]) canOpen [Wave1D.field.q] ((solvers).step al)
    (Wave1D.timeDt numFrames numSteps) numFrames numSteps ⟨Mgr.make g, []⟩

/-- gaussian_pulse.cpp:40-41, 63: as configured. -/
noncomputable def gaussianPulse (al : Bool) (canOpen : Nat → Bool) : Res (SRes (Run α) Unit) := run al canOpen 128 100 10

end GaussianPulse

namespace AdvectGaussian
open SM Solve
variable {α : Type} [Arith α]

/-- advect_gaussian.cpp:69-88: the ids. -/
def var : VarId := ⟨"variable", ["rho"], Basis.volumeAverage⟩
/-- advect_gaussian.cpp:76-81. -/
def partialVar : VarId := ⟨"partial_variable", ["rho"], Basis.volumeAverage⟩
/-- advect_gaussian.cpp:83-88. -/
def newVar : VarId := ⟨"new_variable", ["rho"], Basis.volumeAverage⟩

/-- advect_gaussian.cpp:45-54: the grid. -/
def grid (nx ny : Int) : Res (Rectilinear α) := do
  let r ← Range.ofLengths 2 [nx, ny]
  Rectilinear.make r [Arith.lit (-1 / 2), Arith.lit (-1 / 2)] [Arith.lit 1, Arith.lit 1]

/-- advect_gaussian.cpp:33-35, 90-140, 165-172: one time step. The periodic conditions have no dimensions (`setup` is not called). -/
noncomputable def step (timeDt time : α) : SM (Mgr α) α := do
  let velocity : List α := [Arith.lit (-1), Arith.lit (-1)]
  periodic [] [var]
  advection velocity [var] [partialVar, newVar] 0
  periodic [] [partialVar]
  advection velocity [var] [partialVar, newVar] 1
  swap [var, newVar]
  modifyRes (fun m => .ok (m.setTime (time + timeDt)))
  return time + timeDt

/-- advect_gaussian.cpp:28-191; `gaussian.setup(1.0, average, 0.1)` with `average` three zeros (105-113), `time_dt` (39) as in wave_1D.cpp. -/
noncomputable def run (canOpen : Nat → Bool) (nx ny : Int) (numFrames numSteps : Nat) : Res (SRes (Run α) Unit) := do
  let g ← grid nx ny
  return Run.main (gaussian (Init.Gaussian.setup (Arith.lit 1) [Arith.ofInt 0, Arith.ofInt 0, Arith.ofInt 0] (Arith.lit (1 / 10))) [var]) canOpen [var]
    step (Wave1D.timeDt numFrames numSteps) numFrames numSteps ⟨Mgr.make g, []⟩

/-- advect_gaussian.cpp:36-37, 48: as configured. -/
noncomputable def advectGaussian (canOpen : Nat → Bool) : Res (SRes (Run α) Unit) := run canOpen 128 128 100 10

end AdvectGaussian
end QK
