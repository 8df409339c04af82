import Verif.Model.Outcome
/-
Model of `qk::exception` (/repo/src/lib/exception.h) and of the handler in /repo/src/main.cpp:23-26.
The stringstream `_what` is the text written to it so far: writing appends; `clear()` resets the error state of the stream
and does not touch the text (C++ standard, basic_ios::clear).
-/
namespace QK

/-- exception.h:68, member `_what`. -/
structure Exc where
  text : String
  deriving DecidableEq, Repr

namespace Exc

/-- exception.h:15-18. -/
def empty : Exc := ⟨""⟩

/-- exception.h:20-23. -/
def ofString (s : String) : Exc := ⟨"" ++ s⟩

/-- exception.h:30-33, copy constructor, used when an exception is thrown (a user-declared copy constructor and
destructor suppress the move constructor). -/
def copy (o : Exc) : Exc := ⟨"" ++ o.text⟩

/-- exception.h:59-64 `operator<<(const std::string &)`. -/
def append (e : Exc) (s : String) : Exc := ⟨e.text ++ s⟩

/-- exception.h:53-57 `operator<<(std::ostream &, const exception &)`: what is written. -/
def print (e : Exc) : String := e.text

/-- What a `const char *` points to. exception.h:41-44. -/
inductive CharPtr
  | alive (s : String)
  | dangling

/-- exception.h:41-44 `what()`: `_what.str()` is a temporary string, destroyed at the end of the return statement; the
returned pointer points into it. -/
def what (_ : Exc) : CharPtr := .dangling

/-- Reads a C string. main.cpp:24, exception.h:49. -/
def CharPtr.read : CharPtr → Res String
  | .alive s => .ok s
  | .dangling => .ub "reads a destroyed string"

/-- exception.h:25-28, constructor from a `std::exception`, whose `what()` returned `p`. -/
def ofStd (p : CharPtr) : Res Exc := do
  let s ← p.read
  return ⟨"" ++ s⟩

/-- exception.h:46-51 `operator=`, if reading through the pointer returned by `other.what()` yields the string `s`. -/
def assignReading (e : Exc) (s : String) : Exc := e.append s

/-- exception.h:46-51 `operator=`. -/
def assign (e o : Exc) : Res Exc := do
  let s ← o.what.read
  return e.assignReading s

/-- main.cpp:23-26, what the handler prints if reading through the pointer returned by `qke.what()` yields the string `s`. -/
def handlerReading (s : String) : String := "*** quikin exception caught ***\n" ++ s

/-- main.cpp:23-26: what the handler prints for an exception that reaches `main`. -/
def mainHandler (e : Exc) : Res String := do
  let s ← e.what.read
  return handlerReading s

end Exc
end QK
