import Verif.Model.Disk
import Verif.Spec.Program
/- Specification vocabulary for output files on a medium. -/
namespace QK.Spec
variable {α : Type}

/-- The medium after the requests `log`, if it takes `room k` characters for file `k`. -/
def onMedium (room : Nat → Nat) (log : List Action) : Medium := log.foldl (Medium.act room) Medium.empty

/-- The complete characters of the files. -/
def complete (num : α → List Char) (files : List (Nat × List (Tok α))) : List (Nat × List Char) := files.map fun f => (f.1, Format.fileText num f.2)

/-- `d` is what a process killed while it writes the files `texts` one after the other may leave: the first files, complete, and possibly the beginning of the next one. -/
def LeftOf (texts d : List (Nat × List Char)) : Prop :=
  ∃ n, d = texts.take n ∨ ∃ k cs cut, texts[n]? = some (k, cs) ∧ d = texts.take n ++ [(k, cs.take cut)]

/-- Number of line ends. -/
def lineEnds (cs : List Char) : Nat := cs.count '\n'

end QK.Spec
