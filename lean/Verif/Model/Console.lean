import Verif.Model.Examples
import Verif.Model.Format
/-
Model of what the example programs send to the terminal and of their time measurement: the lines of
/repo/src/example/plasma/gem_challenge.cpp, plasma/harris_current_sheet.cpp, plasma/two_fluid_brio_wu.cpp, euler/sod_shock_tube.cpp,
maxwell/wave_1D.cpp, maxwell/gaussian_pulse.cpp and advection/advect_gaussian.cpp that `Model/Program.lean` and `Model/Examples.lean`
leave out.

`printf` and `std::cout` write to the same stream in the order of the calls (`std::ios_base::sync_with_stdio` is not called). The clock
is an arbitrary sequence of readings in nanoseconds; how the time passes is not modelled.
-/
namespace QK

/-- What a program sends to the terminal: text, an `int` or a `double` with `std::cout <<`, an `int` with `%3i`, a `double` with
`%1.2e`. gem_challenge.cpp:138-143, 460, 502-510 and the like. -/
inductive Item (α : Type) where
  | text (s : String)
  | int (i : Int)
  | num (v : α)
  | wide (i : Int)
  | sci (v : α)

/-- State of a program with terminal and clock: the rest of the state, what was printed, how often the clock was read. Machinery of the model, no counterpart in the code. -/
structure Timed (α : Type) where
  run : Run α
  out : List (Item α)
  reads : Nat

/-- How a program words its messages: gem_challenge.cpp:460 and harris_current_sheet.cpp:465 align the first line, the others do not;
advect_gaussian.cpp:149-186 uses `std::cout` only and has one more line. -/
inductive Wording where
  | aligned
  | printf
  | stream

namespace Timed
open SM
variable {α : Type}

/-- Code that neither prints nor reads the clock. Machinery of the model, no counterpart in the code. -/
def onRun {β : Type} (x : SM (Run α) β) : SM (Timed α) β := fun s =>
  match x s.run with
  | .ok b r => .ok b { s with run := r }
  | .throw msg r => .throw msg { s with run := r }
  | .ub w => .ub w
  | .diverge => .diverge

/-- Prints. gem_challenge.cpp:138, 460, 502 and the like. -/
def say (items : List (Item α)) : SM (Timed α) Unit := fun s => .ok () { s with out := s.out ++ items }

/-- `std::chrono::steady_clock::now()`. gem_challenge.cpp:471, 496, 507 and the like. -/
def now (clock : Nat → Int) : SM (Timed α) Int := fun s => .ok (clock s.reads) { s with reads := s.reads + 1 }

variable [Arith α]

/-- gem_challenge.cpp:498, 507: `1.e-6 * double(std::chrono::duration_cast<std::chrono::microseconds>(…).count())`;
`duration_cast` rounds towards zero. -/
def seconds (nanos : Int) : α := Arith.lit (1 / 10 ^ 6) * Arith.ofInt (nanos.tdiv 1000)

/-- gem_challenge.cpp:460, two_fluid_brio_wu.cpp:382, advect_gaussian.cpp:150. -/
def firstLine : Wording → List (Item α)
  | .aligned => [.text "Exporting Frame   0\n"]
  | _ => [.text "Exporting Frame 0\n"]

/-- advect_gaussian.cpp:152; the other programs print nothing here. -/
def firstDone : Wording → List (Item α)
  | .stream => [.text "Exporting complete\n"]
  | _ => []

/-- gem_challenge.cpp:502, advect_gaussian.cpp:181. -/
def frameBegin : Wording → Int → α → List (Item α)
  | .stream, i, t => [.text "Exporting Frame ", .int i, .text " after time ", .num t, .text " [s]"]
  | _, i, t => [.text "Exporting Frame ", .wide i, .text " after time ", .sci t, .text " [s]"]

/-- gem_challenge.cpp:507, advect_gaussian.cpp:186. -/
def frameEnd : Wording → α → List (Item α)
  | .stream, t => [.text " (plotting took ", .num t, .text " [s])\n"]
  | _, t => [.text " (plotting took ", .sci t, .text " [s])\n"]

/-- gem_challenge.cpp:510. -/
def lastLine (average : α) : List (Item α) := [.text "Solver ran with average frame time evaluation of ", .num average, .text "\n"]

/-- gem_challenge.cpp:469-509: the frames `i + 1 …`, `n` of them; returns `average_delta_time`. -/
noncomputable def frames (w : Wording) (clock : Nat → Int) (canOpen : Nat → Bool) (ids : List VarId) (step : α → SM (Mgr α) α)
    (numFrames numSteps : Nat) : Nat → Nat → α → α → SM (Timed α) α
  | 0, _, _, average => return average
  | n + 1, i, time, average => do
    let start ← now clock
    let time ← onRun (Run.onMgr (Run.steps step numSteps time))
    let later ← now clock
    let delta : α := seconds (later - start)
    let average := average + delta / Arith.ofInt numFrames
    say (frameBegin w (i + 1) delta)
    onRun (Run.exportFrame canOpen (i + 1) ids)
    let done ← now clock
    say (frameEnd w (seconds (done - later)))
    frames w clock canOpen ids step numFrames numSteps n (i + 1) time average

/-- gem_challenge.cpp:455-510 and the corresponding lines of the other programs. -/
noncomputable def main (w : Wording) (clock : Nat → Int) (ic : SM (Mgr α) Unit) (canOpen : Nat → Bool) (ids : List VarId)
    (step : α → α → SM (Mgr α) α) (timeDt : α) (numFrames numSteps : Nat) : SM (Timed α) Unit := do
  onRun (Run.onMgr ic)
  say (firstLine w)
  onRun (Run.exportFrame canOpen 0 ids)
  say (firstDone w)
  onRun (Run.onMgr (modifyRes (fun m => .ok (m.setTime (Arith.lit 0)))))
  onRun (Run.onMgr (modifyRes (fun m => .ok (m.setDt timeDt))))
  let average ← frames w clock canOpen ids (step timeDt) numFrames numSteps numFrames 0 (Arith.lit 0) (Arith.ofInt 0)
  say (lastLine average)

/-- A program before it has done anything. Machinery of the model, no counterpart in the code. -/
def start (g : Rectilinear α) : Timed α := ⟨⟨Mgr.make g, []⟩, [], 0⟩

end Timed

namespace GemConstants
variable {α : Type} [Arith α]

/-- gem_challenge.cpp:76, 85-89, 138-143, harris_current_sheet.cpp:140-145: what is printed at the beginning. -/
def startLines (K : GemConstants α) (timeDt dx : α) : List (Item α) :=
  let vse := Arith.lit (1 / 10) * K.c
  let wce := K.e * K.B0 / K.me
  let wpe := Arith.sqrt (K.n0 * K.e * K.e / K.eps0 / K.me)
  let wpi := Arith.sqrt (K.n0 * K.e * K.e / K.eps0 / K.mi)
  [.text "CFL Speed of light: ", .num (timeDt * K.c / dx), .text "\n",
   .text "CFL Speed of sound (e): ", .num (timeDt * vse / dx), .text "\n",
   .text "dt * wpe: ", .num (timeDt * wpe), .text "\n",
   .text "dt * wce: ", .num (timeDt * wce), .text "\n",
   .text "dt * wpi: ", .num (timeDt * wpi), .text "\n",
   .text "dt * wci: ", .num (timeDt * K.wci), .text "\n"]

end GemConstants

section
open SM Solve Timed GemChallenge
variable {α : Type} [Arith α]

/-- gem_challenge.cpp:38-512. -/
noncomputable def GemChallenge.runTimed (clock : Nat → Int) (al : Bool) (canOpen : Nat → Bool) (nx : Int) (numFrames numSteps : Nat) : Res (SRes (Timed α) Unit) := do
  let K : GemConstants α := GemConstants.make
  let g ← grid K nx
  return (do
    let dx ← lift (g.dx 0)
    say (K.startLines (timeDt K numFrames numSteps) dx)
    let mults ← lift (Source.currentSetup K.eps0 [-K.e, K.e] [K.me, K.mi])
    Timed.main .aligned clock (gem (initial K) [electrons.q, ions.q, fields.q]) canOpen [electrons.q, ions.q, fields.q]
      ((solvers K mults).step al) (timeDt K numFrames numSteps) numFrames numSteps : SM (Timed α) Unit) (Timed.start g)

/-- harris_current_sheet.cpp:38-528. -/
noncomputable def HarrisCurrentSheet.runTimed (clock : Nat → Int) (al : Bool) (canOpen : Nat → Bool) (nx : Int) (numFrames numSteps : Nat) : Res (SRes (Timed α) Unit) := do
  let K : GemConstants α := constants
  let g ← HarrisCurrentSheet.grid K nx
  return (do
    let dx ← lift (g.dx 0)
    say (K.startLines (HarrisCurrentSheet.timeDt K numFrames numSteps) dx)
    let mults ← lift (Source.currentSetup K.eps0 [-K.e, K.e] [K.me, K.mi])
    Timed.main .aligned clock (gem (initial K) [electrons.q, ions.q, fields.q]) canOpen [electrons.q, ions.q, fields.q]
      ((HarrisCurrentSheet.solvers K mults).step al) (HarrisCurrentSheet.timeDt K numFrames numSteps) numFrames numSteps : SM (Timed α) Unit) (Timed.start g)

/-- two_fluid_brio_wu.cpp:35-432. -/
noncomputable def TwoFluidBrioWu.runTimed (clock : Nat → Int) (al : Bool) (canOpen : Nat → Bool) (nx : Int) (numFrames numSteps : Nat) : Res (SRes (Timed α) Unit) := do
  let g ← TwoFluidBrioWu.grid nx
  return (do
    let mults ← lift (Source.currentSetup (eps0 : α) [qe, qi] [me, mi])
    Timed.main .printf clock (brioWu TwoFluidBrioWu.initial [electrons.q, ions.q, fields.q]) canOpen [electrons.q, ions.q, fields.q]
      ((TwoFluidBrioWu.solvers mults).step al) (TwoFluidBrioWu.timeDt numFrames numSteps) numFrames numSteps : SM (Timed α) Unit) (Timed.start g)

/-- sod_shock_tube.cpp:37-227. -/
noncomputable def SodShockTube.runTimed (clock : Nat → Int) (al : Bool) (canOpen : Nat → Bool) (nx ny : Int) (numFrames numSteps : Nat) : Res (SRes (Timed α) Unit) := do
  let g ← SodShockTube.grid nx ny
  return Timed.main .printf clock (shockTube SodShockTube.initial [fluid.q]) canOpen [fluid.q] ((SodShockTube.solvers 2).step al) (SodShockTube.timeDt numFrames numSteps)
    numFrames numSteps (Timed.start g)

/-- wave_1D.cpp:34-213. -/
noncomputable def Wave1D.runTimed (clock : Nat → Int) (al : Bool) (canOpen : Nat → Bool) (nx ny nz : Int) (numFrames numSteps : Nat) : Res (SRes (Timed α) Unit) := do
  let g ← Wave1D.grid nx ny nz
  return Timed.main .printf clock (wave Wave1D.initial [field.q]) canOpen [field.q] (Wave1D.solvers.step al) (Wave1D.timeDt numFrames numSteps) numFrames numSteps (Timed.start g)

/-- gaussian_pulse.cpp:34-206. -/
noncomputable def GaussianPulse.runTimed (clock : Nat → Int) (al : Bool) (canOpen : Nat → Bool) (nx : Int) (numFrames numSteps : Nat) : Res (SRes (Timed α) Unit) := do
  let g ← GaussianPulse.grid nx
  return Timed.main .printf clock (pulse (Arith.lit 1) (Arith.lit (1 / 100)) [Wave1D.field.q]) canOpen [Wave1D.field.q] (GaussianPulse.solvers.step al)
    (Wave1D.timeDt numFrames numSteps) numFrames numSteps (Timed.start g)

/-- advect_gaussian.cpp:28-191. -/
noncomputable def AdvectGaussian.runTimed (clock : Nat → Int) (canOpen : Nat → Bool) (nx ny : Int) (numFrames numSteps : Nat) : Res (SRes (Timed α) Unit) := do
  let g ← AdvectGaussian.grid nx ny
  return Timed.main .stream clock (gaussian (Init.Gaussian.setup (Arith.lit 1) [Arith.ofInt 0, Arith.ofInt 0, Arith.ofInt 0] (Arith.lit (1 / 10))) [var]) canOpen [var]
    AdvectGaussian.step (Wave1D.timeDt numFrames numSteps) numFrames numSteps (Timed.start g)

end

namespace Format

/-- `%1.2e` of a number that is not zero (C11 7.21.6.1: one digit before the point, two after it). gem_challenge.cpp:502, 507. -/
noncomputable def sciText (x : ℝ) : List Char :=
  let s := scientific 3 |x|
  let ds := Nat.toDigits 10 s.1
  (if x < 0 then ['-'] else []) ++ ds.take 1 ++ '.' :: ds.drop 1 ++ exponent s.2

/-- `%1.2e` of a zero. gem_challenge.cpp:502, 507. -/
def sciZero : List Char := "0.00e+00".toList

/-- `%3i`: at least three characters, blanks in front. gem_challenge.cpp:502. -/
def wideText (i : Int) : List Char := List.replicate (3 - (intText i).length) ' ' ++ intText i

/-- The characters of an item, `num` and `sci` giving those of numbers. Machinery of the model, no counterpart in the code. -/
def itemText {α : Type} (num sci : α → List Char) : Item α → List Char
  | .text s => s.toList
  | .int i => intText i
  | .num v => num v
  | .wide i => wideText i
  | .sci v => sci v

/-- The characters on the terminal. Machinery of the model, no counterpart in the code. -/
def consoleText {α : Type} (num sci : α → List Char) (out : List (Item α)) : List Char := out.flatMap (itemText num sci)

end Format
end QK
