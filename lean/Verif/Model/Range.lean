import Verif.Model.Outcome
/-
Model of `qk::range` (/repo/src/lib/range.h, /repo/src/lib/range.cpp).

`int` is modelled by unbounded `Int` (overflow: see `Verif/Model/Int32.lean`, property C66).
`_lower` and `_upper` are kept as one list of pairs: `setup` (range.cpp:73-98, "the only function
with write access", range.h:68) always resizes both to `_num_dims` entries, and `_num_dims` is the
length of that list. The cached `_stride` is kept as a separate field, as in the code.
-/
namespace QK

/-- range.h:71-74, members `_num_dims`, `_lower`, `_upper`, `_stride`. -/
structure Range where
  dims : List (Int × Int)
  stride : List Int
  deriving DecidableEq, Repr

namespace Range

/-- range.cpp:13-17, default constructor: no dimensions. -/
def empty : Range := ⟨[], []⟩

/-- range.cpp:126-130. -/
def numDims (r : Range) : Nat := r.dims.length

/-- range.h:37. -/
def lower (r : Range) (i : Int) : Res Int := Prod.fst <$> vget r.dims i

/-- range.h:38. -/
def upper (r : Range) (i : Int) : Res Int := Prod.snd <$> vget r.dims i

/-- range.cpp:132-136 `length(i) = _upper[i] - _lower[i]`. -/
def length (r : Range) (i : Int) : Res Int := do
  let u ← r.upper i
  let l ← r.lower i
  return u - l

/-- range.cpp:92-95: `_stride[n-1] = 1; for (i = n-2; i >= 0; --i) _stride[i] = _stride[i+1]*length(i+1)`.
The descending loop is transcribed as recursion on the tail of the dimension list: the entry for a
dimension is computed from the (already computed) entry and the length of the next one. -/
def strideLoop : List (Int × Int) → List Int
  | [] => []
  | [_] => [1]
  | _ :: d :: ds =>
    match strideLoop (d :: ds) with
    | [] => []          -- not reached: `strideLoop (d :: ds)` has an entry for `d`
    | s :: ss => s * (d.2 - d.1) :: s :: ss

/-- range.cpp:73-98 `setup`. -/
def setup (dims : List (Int × Int)) : Range := ⟨dims, strideLoop dims⟩

/-- Reads `n` entries of two C arrays (range.cpp:88-91); undefined behaviour if one is too short. -/
def readArrays (n : Nat) (lo hi : List Int) : Res (List (Int × Int)) :=
  if n ≤ lo.length ∧ n ≤ hi.length then .ok ((lo.take n).zip (hi.take n))
  else .ub "array argument shorter than num_dims"

/-- range.cpp:33-37 constructor from bounds, and range.cpp:50-54 `resize(num_dims, lower, upper)`.
Negative `num_dims` is not modelled. -/
def ofBounds (n : Nat) (lo hi : List Int) : Res Range := setup <$> readArrays n lo hi

/-- range.cpp:25-31 constructor from lengths: lower bounds are 0. -/
def ofLengths (n : Nat) (dims : List Int) : Res Range := ofBounds n (List.replicate n 0) dims

/-- range.cpp:19-23 copy constructor, 44-48 `resize(range)`, 166-171 `operator=`: the bounds are
copied and the strides recomputed. -/
def copy (r : Range) : Range := setup r.dims

/-- range.cpp:144-150 `volume`. -/
def volume (r : Range) : Int :=
  match r.stride, r.dims with
  | s :: _, d :: _ => s * (d.2 - d.1)
  | _, _ => 0            -- `_num_dims == 0` (both vectors always have `_num_dims` entries)

/-- range.cpp:152-164 `set(dim, lower, upper)`: writes to local arrays of size `_num_dims`
(out of bounds is undefined behaviour), then `setup`. -/
def set (r : Range) (dim : Int) (lo hi : Int) : Res Range := setup <$> vset r.dims dim (lo, hi)

/-- range.cpp:114-118 `expand`. -/
def expand (r : Range) (dim : Int) (a b : Int) : Res Range := do
  let l ← r.lower dim
  let u ← r.upper dim
  r.set dim (l + a) (u + b)

/-- range.cpp:120-124 `shift`. -/
def shift (r : Range) (dim : Int) (s : Int) : Res Range := do
  let l ← r.lower dim
  let u ← r.upper dim
  r.set dim (l + s) (u + s)

/-- range.cpp:100-112 `extrude`: appends a last dimension. -/
def extrude (r : Range) (lo hi : Int) : Range := setup (r.dims ++ [(lo, hi)])

/-- range.cpp:56-71 `includes`, on dimension lists of the same length: the loop returns false at
the first dimension that sticks out. -/
def includesLoop : List (Int × Int) → List (Int × Int) → Bool
  | a :: as, b :: bs => if a.1 ≤ b.1 ∧ b.2 ≤ a.2 then includesLoop as bs else false
  | _, _ => true

/-- range.cpp:56-71 `includes`. -/
def includes (r q : Range) : Bool :=
  if q.numDims ≠ r.numDims then false else includesLoop r.dims q.dims

/-- range.h:90-97 `operator==`, the loop. -/
def eqLoop : List (Int × Int) → List (Int × Int) → Bool
  | a :: as, b :: bs => if a.1 ≠ b.1 then false else if a.2 ≠ b.2 then false else eqLoop as bs
  | _, _ => true

/-- range.h:83-100 `operator==`. -/
def eqv (r q : Range) : Bool :=
  if r.numDims ≠ q.numDims then false else eqLoop r.dims q.dims

/-- range.h:102-105 `operator!=`. -/
def neqv (r q : Range) : Bool := !(eqv r q)

/-- range.cpp:88-91 when source and destination are the same vector: `v[i] = v[i]` for `i < n`. -/
def selfCopy : Nat → List Int → Res (List Int)
  | 0, v => .ok v
  | n+1, v => do
    let v ← selfCopy n v
    let x ← vget v n
    vset v n x

/-- range.cpp:166-171 `r = r` (and 44-48 `r.resize(r)`): the pointers passed to `setup` point into the range's own vectors.
`setup` (73-98) clears both vectors and resizes them to zeros, then copies through the pointers. By the C++ standard `clear()`
invalidates the pointers. The model is more lenient: it takes the memory to be reused by `resize` (the capacity
suffices), so that the pointers see the new zeros. -/
def assignSelf (r : Range) : Res Range := do
  let lo ← selfCopy r.numDims (List.replicate r.numDims 0)
  let hi ← selfCopy r.numDims (List.replicate r.numDims 0)
  return setup (lo.zip hi)

end Range

/-- Ranges that client code can obtain: any history of the public constructors and mutators
(range.h:17-44). -/
inductive Range.Made : Range → Prop
  | default : Made Range.empty
  | ofBounds {n lo hi r} : Range.ofBounds n lo hi = .ok r → Made r
  | ofLengths {n d r} : Range.ofLengths n d = .ok r → Made r
  | copy {r} : Made r → Made r.copy
  | set {r d lo hi q} : Made r → r.set d lo hi = .ok q → Made q
  | expand {r d a b q} : Made r → r.expand d a b = .ok q → Made q
  | shift {r d s q} : Made r → r.shift d s = .ok q → Made q
  | extrude {r lo hi} : Made r → Made (r.extrude lo hi)

end QK
