import Verif.Model.Format
import Verif.Spec.Program
/-
Specification vocabulary for the characters of files: what a decimal number means, how a reader finds the values of a component, what is assumed of the printing of numbers.
-/
namespace QK.Spec

/-- The value of a list of decimal digits. -/
def digitsValue (s : List Char) : Nat := s.foldl (fun n c => 10 * n + (c.toNat - 48)) 0

/-- The exponent part of a decimal number. -/
def readExponent : List Char → Option Int
  | [] => some 0
  | 'e' :: '+' :: t => if t ≠ [] ∧ t.all Char.isDigit then some (digitsValue t) else none
  | 'e' :: '-' :: t => if t ≠ [] ∧ t.all Char.isDigit then some (-digitsValue t) else none
  | _ => none

/-- Digits, perhaps a point and digits, perhaps an exponent. -/
noncomputable def readUnsigned (s : List Char) : Option ℝ :=
  let ip := s.takeWhile Char.isDigit
  let r := s.dropWhile Char.isDigit
  let fp := match r with
    | '.' :: t => t.takeWhile Char.isDigit
    | _ => []
  let r := match r with
    | '.' :: t => t.dropWhile Char.isDigit
    | t => t
  if ip = [] then none else (readExponent r).map fun k => (digitsValue (ip ++ fp) : ℝ) * 10 ^ (k - (fp.length : Int))

/-- The number a text stands for: a sign, perhaps, and an unsigned number. -/
noncomputable def readNumber : List Char → Option ℝ
  | '-' :: s => (readUnsigned s).map fun x => -x
  | s => readUnsigned s

/-- How a reader gets the values of a component from a file: after the line that announces it and one more line, the words of the next line. -/
noncomputable def readBlock (s : List Char) (name comp : String) : Option (List (Option ℝ)) :=
  match (s.splitOn '\n').dropWhile (fun l => l ≠ ("SCALARS " ++ name ++ "." ++ comp ++ " float 1").toList) with
  | _ :: _ :: l :: _ => some (((l.splitOn ' ').filter (· ≠ [])).map readNumber)
  | _ => none

/-- What is assumed of the printing of numbers with `P` digits: finite numbers that are not zero as in Model/Format, zeros with or without a sign, others as usual. -/
structure Prints {α : Type} (P : Nat) (val : α → ℝ) (fin : α → Prop) (num : α → List Char) : Prop where
  finite : ∀ a, fin a → val a ≠ 0 → num a = Format.text P (val a)
  zero : ∀ a, fin a → val a = 0 → num a = ['0'] ∨ num a = ['-', '0']
  other : ∀ a, ¬ fin a → num a ∈ ["inf".toList, "-inf".toList, "nan".toList, "-nan".toList]

/-- `y` is `x` up to an error of `5·10⁻ᴾ` of its size. -/
def CloseTo (P : Nat) (x y : ℝ) : Prop := |y - x| ≤ 5 * 10 ^ (-(P : Int)) * |x|

/-- What is read in place of a value printed with `P` digits: a number close to it, nothing if it is not finite. -/
def Reads {α : Type} (P : Nat) (val : α → ℝ) (fin : α → Prop) (v : α) (r : Option ℝ) : Prop :=
  (fin v → ∃ y, r = some y ∧ CloseTo P (val v) y) ∧ (¬ fin v → r = none)

/-- The components of a variable can be told apart in a file: no line ends in the names, and different names. -/
structure Labels (ls : List (String × String)) : Prop where
  lines : ∀ l ∈ ls, '\n' ∉ l.1.toList ∧ '\n' ∉ l.2.toList
  nodup : (ls.map fun l => l.1 ++ "." ++ l.2).Nodup

end QK.Spec
