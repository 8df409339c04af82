import Verif.Model.Indexer
/-
Model of the operators of `qk::range` and `qk::indexer` that no other code in /repo calls: `indexer::operator=` (/repo/src/lib/indexer.cpp:65-77), the implicit copy constructor of `indexer`
(/repo/src/lib/indexer.h) and `operator<<` of `range` (/repo/src/lib/range.h:46-64).
-/
namespace QK

namespace Indexer

/-- indexer.cpp:71-74: `for (i < n) _index[i] = indexer._index[i]`. -/
def copyIndex : Nat → List Int → List Int → Res (List Int)
  | 0, dst, _ => .ok dst
  | n + 1, dst, src => do
    let d ← copyIndex n dst src
    let x ← vget src n
    vset d n x

/-- `v.resize(n)` of a `std::vector<int>`. indexer.cpp:72, range.cpp:85-87. -/
def resizeInts (n : Nat) (v : List Int) : List Int := v.take n ++ List.replicate (n - v.length) 0

/-- indexer.cpp:65-77 `a = b` for two different objects. -/
def assign (a b : Indexer) : Res Indexer := do
  let sup := b.sup.copy
  let index ← copyIndex sup.numDims (resizeInts sup.numDims a.index) b.index
  return { sup := sup, sub := b.sub.copy, linear := b.linear, ex := b.ex, index := index }

/-- indexer.cpp:65-77 `i = i`: `resize` of the range to itself and the assignment of the sub-range to itself (`Range.assignSelf`, which is lenient about the pointers). -/
def assignSelf (i : Indexer) : Res Indexer := do
  let sup ← i.sup.assignSelf
  let sub ← i.sub.assignSelf
  let index := resizeInts sup.numDims i.index
  let index ← copyIndex sup.numDims index index
  return { sup := sup, sub := sub, linear := i.linear, ex := i.ex, index := index }

/-- Implicit copy constructor: base and `_sub_range` by the copy constructor of `range` (range.cpp:19-23), the other members as they are. -/
def copyCtor (b : Indexer) : Indexer := { b with sup := b.sup.copy, sub := b.sub.copy }

/-- Indexers that client code can obtain: any history of the constructors and mutators (indexer.h:17-41), without assignment to itself. -/
inductive Made : Indexer → Prop
  | default : Made Indexer.default
  | make (sub sup : Range) : Made (Indexer.make sub sup)
  | copy {i} : Made i → Made i.copyCtor
  | next {i j} : Made i → i.next = .ok j → Made j
  | increment {i j dim} : Made i → i.increment dim = .ok j → Made j
  | decrement {i j dim} : Made i → i.decrement dim = .ok j → Made j
  | assign {i j k} : Made i → Made j → i.assign j = .ok k → Made k

end Indexer

/-- range.h:50-55 and 57-62: the loop over the dimensions from dimension `i` on, `x` being the bound printed: `os << x; if (i != num_dims - 1) os << ", "`. -/
def Range.printLoop (n : Int) : Nat → List Int → List String
  | _, [] => []
  | i, x :: xs => toString x :: ((if (i : Int) ≠ n - 1 then [", "] else []) ++ Range.printLoop n (i + 1) xs)

/-- range.h:46-64 `operator<<`: what is written to the stream, and the outcome. The function is declared to return `std::ostream &` and has no return statement. -/
def Range.print (r : Range) : List String × Res Unit :=
  (["Range : lower ["] ++ Range.printLoop r.numDims 0 (r.dims.map Prod.fst) ++ ["], upper ["] ++ Range.printLoop r.numDims 0 (r.dims.map Prod.snd) ++ ["]"],
   .ub "function with a result ends without return")

end QK
