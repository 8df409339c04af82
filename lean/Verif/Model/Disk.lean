import Verif.Model.Examples
import Verif.Model.Format
/-
Model of the output files on a real medium: what `write_vtk` (/repo/src/variable/variable_manager.cpp:63-110) asks of the stream, what a
medium with limited room makes of it, and what is left if the process is killed.

A `std::ofstream` remembers errors in its state and throws nothing unless `exceptions()` is called, which the code does not do. After an
error `<<` does nothing. The code tests the state once, after opening (line 83).

Simplification: a stream has no buffer of its own while the process lives; characters reach the medium in order. (A process that is killed
may lose the end of what it wrote to the open file: `Medium.killed`.)
-/
namespace QK

/-- Requests to the stream: variable_manager.cpp:82 (constructor), 86-105 (`<<`), 107 and the destructor (`close`). -/
inductive Action where
  | opened (frame : Nat)
  | wrote (cs : List Char)
  | closed

/-- The files on the medium: closed ones and the open one, with their numbers and contents. Machinery of the model, no counterpart in the code. -/
structure Medium where
  done : List (Nat × List Char)
  cur : Option (Nat × List Char)

namespace Medium

/-- No files. Machinery of the model, no counterpart in the code. -/
def empty : Medium := ⟨[], none⟩

/-- One request on a medium that takes `room k` characters for file `k`: of the characters written, those for which there is no room are lost.
variable_manager.cpp:82-107. -/
def act (room : Nat → Nat) (M : Medium) : Action → Medium
  | .opened k => { M with cur := some (k, []) }
  | .wrote cs => { M with cur := M.cur.map fun f => (f.1, (f.2 ++ cs).take (room f.1)) }
  | .closed => ⟨M.done ++ M.cur.toList, none⟩

/-- What is left of the files if the process is killed: the closed files, and of the open one what had left the buffer. Machinery of the model, no counterpart in the code. -/
def killed (M : Medium) (cut : Nat) : List (Nat × List Char) := M.done ++ (M.cur.map fun f => (f.1, f.2.take cut)).toList

end Medium

/-- State of a program with the requests it made. Machinery of the model, no counterpart in the code. -/
structure Logged (α : Type) where
  run : Run α
  log : List Action

namespace Logged
open SM
variable {α : Type}

/-- Code that does not write to files. Machinery of the model, no counterpart in the code. -/
def onRun {β : Type} (x : SM (Run α) β) : SM (Logged α) β := fun s =>
  match x s.run with
  | .ok b r => .ok b { s with run := r }
  | .throw msg r => .throw msg { s with run := r }
  | .ub w => .ub w
  | .diverge => .diverge

variable [Arith α] (num : α → List Char)

/-- variable_manager.cpp:63-110 for a frame: open, write item by item, close. If an exception passes through, the destructor of the stream closes the file.
`num` gives the characters of a number. (Without variables the code opens no file and the model an empty one; the programs have variables.) -/
noncomputable def exportFrame (canOpen : Nat → Bool) (frame : Nat) (ids : List VarId) : SM (Logged α) Unit := fun s =>
  match Vtk.write s.run.mgr (canOpen frame) ids [] with
  | .ok _ f => .ok () ⟨{ s.run with files := s.run.files ++ [(frame, f)] },
      s.log ++ (.opened frame :: f.map (fun t => .wrote (Format.tokText num t)) ++ [.closed])⟩
  | .throw msg f => .throw msg (if canOpen frame then ⟨{ s.run with files := s.run.files ++ [(frame, f)] },
      s.log ++ (.opened frame :: f.map (fun t => .wrote (Format.tokText num t)) ++ [.closed])⟩ else s)
  | .ub w => .ub w
  | .diverge => .diverge

/-- gem_challenge.cpp:469-509: the frames `i + 1 …`, `n` of them. -/
noncomputable def frames (canOpen : Nat → Bool) (ids : List VarId) (step : α → SM (Mgr α) α) (numSteps : Nat) : Nat → Nat → α → SM (Logged α) Unit
  | 0, _, _ => return ()
  | n + 1, i, time => do
    let time ← onRun (Run.onMgr (Run.steps step numSteps time))
    exportFrame num canOpen (i + 1) ids
    frames canOpen ids step numSteps n (i + 1) time

/-- gem_challenge.cpp:457-509 (and the corresponding lines of the other programs): initial condition, frame 0, time loop. -/
noncomputable def main (ic : SM (Mgr α) Unit) (canOpen : Nat → Bool) (ids : List VarId) (step : α → α → SM (Mgr α) α)
    (timeDt : α) (numFrames numSteps : Nat) : SM (Logged α) Unit := do
  onRun (Run.onMgr ic)
  exportFrame num canOpen 0 ids
  onRun (Run.onMgr (modifyRes (fun m => .ok (m.setTime (Arith.lit 0)))))
  onRun (Run.onMgr (modifyRes (fun m => .ok (m.setDt timeDt))))
  frames num canOpen ids (step timeDt) numSteps numFrames 0 (Arith.lit 0)

end Logged

section
variable {α : Type} [Arith α]
open GemChallenge Solve

/-- gem_challenge.cpp:38-512 with the requests to the files. -/
noncomputable def GemChallenge.runLogged (num : α → List Char) (al : Bool) (canOpen : Nat → Bool) (nx : Int) (numFrames numSteps : Nat) : Res (SRes (Logged α) Unit) := do
  let K : GemConstants α := GemConstants.make
  let g ← grid K nx
  let mults ← Source.currentSetup K.eps0 [-K.e, K.e] [K.me, K.mi]
  return Logged.main num (gem (initial K) [electrons.q, ions.q, fields.q]) canOpen [electrons.q, ions.q, fields.q]
    ((solvers K mults).step al) (timeDt K numFrames numSteps) numFrames numSteps ⟨⟨Mgr.make g, []⟩, []⟩

end

end QK
