import Verif.Model.Console
import Verif.Spec.Format
/-
Specification vocabulary for the terminal: what is shown of an elapsed time, the lines of a complete run, what is left of them if an exception ends the run.
-/
namespace QK.Spec
variable {α : Type} [Arith α]

/-- Whole microseconds between two readings of a clock in nanoseconds, in seconds. -/
def elapsed (clock : Nat → Int) (a b : Nat) : α := Arith.lit (1 / 10 ^ 6) * Arith.ofInt ((clock b - clock a).tdiv 1000)

/-- The line that announces frame 0, and the one that follows it in advect_gaussian. -/
def headOf : Wording → List (Item α)
  | .aligned => [.text "Exporting Frame   0\n"]
  | .printf => [.text "Exporting Frame 0\n"]
  | .stream => [.text "Exporting Frame 0\n"]

def headDone : Wording → List (Item α)
  | .stream => [.text "Exporting complete\n"]
  | _ => []

/-- The line of a frame before its file is written: number and time of its steps … -/
def beginOf (w : Wording) (i : Nat) (t : α) : List (Item α) :=
  match w with
  | .stream => [.text "Exporting Frame ", .int i, .text " after time ", .num t, .text " [s]"]
  | _ => [.text "Exporting Frame ", .wide i, .text " after time ", .sci t, .text " [s]"]

/-- … and the rest of it: time of writing the file. -/
def endOf (w : Wording) (t : α) : List (Item α) :=
  match w with
  | .stream => [.text " (plotting took ", .num t, .text " [s])\n"]
  | _ => [.text " (plotting took ", .sci t, .text " [s])\n"]

/-- The line of frame `i + 1`, the clock having been read `r` times before frame 1: three readings per frame, before and after the steps and after the file is written. -/
def lineOf (w : Wording) (clock : Nat → Int) (r i : Nat) : List (Item α) :=
  beginOf w (i + 1) (elapsed clock (r + 3 * i) (r + 3 * i + 1)) ++ endOf w (elapsed clock (r + 3 * i + 1) (r + 3 * i + 2))

/-- The lines of the first `n` frames. -/
def linesOf (w : Wording) (clock : Nat → Int) (r n : Nat) : List (Item α) := (List.range n).flatMap (lineOf w clock r)

/-- The time of the steps of a frame divided by the number of frames, added up. -/
def averageOf (clock : Nat → Int) (r n : Nat) : α :=
  (List.range n).foldl (fun a i => a + elapsed clock (r + 3 * i) (r + 3 * i + 1) / Arith.ofInt n) (Arith.ofInt 0)

/-- The last line. -/
def tailOf (average : α) : List (Item α) := [.text "Solver ran with average frame time evaluation of ", .num average, .text "\n"]

/-- Everything a complete run of `n` frames prints after the lines at the beginning. -/
def consoleOf (w : Wording) (clock : Nat → Int) (r n : Nat) : List (Item α) :=
  headOf w ++ headDone w ++ linesOf w clock r n ++ tailOf (averageOf clock r n)

/-- What was printed, and for which frames there are files, when an exception ends a run of `n` frames: in the initial condition, while the file of frame 0 is written, in the steps of frame `k + 1`, while the
file of frame `k + 1` is written. -/
inductive Interrupted (w : Wording) (clock : Nat → Int) (canOpen : Nat → Bool) (r n : Nat) : List (Item α) → List Nat → Prop
  | start : Interrupted w clock canOpen r n [] []
  | zero : Interrupted w clock canOpen r n (headOf w) (if canOpen 0 then [0] else [])
  | steps (k : Nat) : k < n → Interrupted w clock canOpen r n (headOf w ++ headDone w ++ linesOf w clock r k) (List.range (k + 1))
  | frame (k : Nat) : k < n → Interrupted w clock canOpen r n
      (headOf w ++ headDone w ++ linesOf w clock r k ++ beginOf w (k + 1) (elapsed clock (r + 3 * k) (r + 3 * k + 1)))
      (if canOpen (k + 1) then List.range (k + 2) else List.range (k + 1))

/-- What a run prints that ends because the file of frame `k` cannot be created. -/
def stoppedAt (w : Wording) (clock : Nat → Int) (r : Nat) : Nat → List (Item α)
  | 0 => headOf w
  | k + 1 => headOf w ++ headDone w ++ linesOf w clock r k ++ beginOf w (k + 1) (elapsed clock (r + 3 * k) (r + 3 * k + 1))

/-- A run prints `start`, and then all lines if all files can be created, the lines up to the first that cannot otherwise. -/
structure Shows (w : Wording) (clock : Nat → Int) (canOpen : Nat → Bool) (n : Nat) (start : List (Item α)) (res : SRes (Timed α) Unit) : Prop where
  complete : (∀ j ≤ n, canOpen j = true) → ∃ s, res = .ok () s ∧ s.out = start ++ consoleOf w clock 0 n
  stopped : ∀ k ≤ n, (∀ j < k, canOpen j = true) → canOpen k = false → ∃ m s, res = .throw m s ∧ s.out = start ++ stoppedAt w clock 0 k

/-- Forgets terminal and clock. -/
def Untimed {β γ : Type} (f : β → γ) : SRes (Timed α) β → SRes (Run α) γ
  | .ok b s => .ok (f b) s.run
  | .throw msg s => .throw msg s.run
  | .ub w => .ub w
  | .diverge => .diverge

end QK.Spec
