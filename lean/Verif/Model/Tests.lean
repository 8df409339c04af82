import Verif.Model.Variable
/-
Model of the test programs of the repository (/repo/test/test_interface.h, /repo/test/lib/test_range.cpp,
/repo/test/lib/test_indexer.cpp, /repo/test/variable/test_variable.cpp).

The numbers written in the tests are parameters here; the tests as written are the instances at the end. Printed text is not modelled; the name of an
assertion is kept as message of the exception.
-/
namespace QK.Tests

/-- test_interface.h:30-36 `test_monitor::assert`. -/
def check (passed : Bool) (name : String) : Res Unit := if passed then .ok () else .throw name

/-- test_interface.h:48-60 `QK_TEST_CALL`: value of `test_passed` after the test; exceptions are caught. -/
def call (passed : Bool) (test : Res Bool) : Res Bool :=
  match test with
  | .ok status => .ok (passed && status)
  | .throw _ => .ok false
  | .ub w => .ub w
  | .diverge => .diverge

/-- test_interface.h:62-73 `main` of a group of tests: the exit status (`true`: success). -/
def group (tests : List (Res Bool)) : Res Bool := tests.foldlM call true

/-- A loop `for(int i = 0; i < n; ++i) t = t && body(i);`; the right operand is not evaluated once `t` is false. test_range.cpp:59-71 and the like. -/
def every (n : Nat) (body : Nat → Res Bool) : Res Bool := (List.range n).foldlM (fun t i => if t then body i else .ok false) true

/-- test_range.cpp:22-24, 50-52: `for(int i = num_dims-1; i > 0; --i) stride[i-1] = stride[i] * length[i];`, from `i` down. -/
def strideDown (length : List Int) : Nat → List Int → Res (List Int)
  | 0, s => .ok s
  | i+1, s => do
    let a ← vget s (i + 1)
    let b ← vget length (i + 1)
    let s ← vset s i (a * b)
    strideDown length i s

/-- test_range.cpp:20-24, 48-52: the strides computed by the test. The array is not initialised; the entry read is always one written before (the zeros are
never read). With no dimensions `stride[-1]` is undefined behaviour. -/
def strides (n : Nat) (length : List Int) : Res (List Int) := do
  let s ← vset (List.replicate n 0) ((n : Int) - 1) 1
  strideDown length (n - 1) s

/-- test_range.cpp:59-71 (and 28-38, 75-87): bounds, lengths and strides of a range compared with arrays. -/
def compareWith (r : Range) (n : Nat) (lower upper length stride : List Int) : Res Unit := do
  let a ← every n fun i => do return (← r.lower i) == (← vget lower i)
  let b ← every n fun i => do return (← r.upper i) == (← vget upper i)
  let c ← every n fun i => do return (← r.length i) == (← vget length i)
  let d ← every n fun i => do return (← vget r.stride i) == (← vget stride i)
  check a "lower test"
  check b "upper test"
  check c "length test"
  check d "stride test"

/-- test_range.cpp:7-92 `test_constructors`: `dims` and the product `volume` written out in line 40, `lower`, `upper`. The four loops over `i` in one are
taken one after the other. -/
def rangeConstructors (dims : List Int) (volume : Int) (lower upper : List Int) : Res Bool := do
  check (Range.empty.volume == 0) "Empty Constructor"
  let n := dims.length
  let rng ← Range.ofLengths n dims
  let stride ← strides n dims
  check (rng.numDims == n) "Block constructor num_dims test"
  compareWith rng n (List.replicate n 0) dims dims stride
  check (rng.volume == volume) "Block constructor volume test"
  let m := lower.length
  let stride ← strides m (List.zipWith (· - ·) upper lower)
  let rng ← Range.ofBounds m lower upper
  check (rng.numDims == m) "Bound constructor num_dims test"
  compareWith rng m lower upper (List.zipWith (· - ·) upper lower) stride
  let rng2 := rng.copy
  compareWith rng2 m lower upper (List.zipWith (· - ·) upper lower) stride
  return true

/-- test_range.cpp:94-124 `test_extrusion`. -/
def rangeExtrusion (a b c lo hi : Int) : Res Bool := do
  let base ← Range.ofLengths 3 [a, b, c]
  let rng := ((Range.empty.extrude 0 a).extrude 0 b).extrude 0 c
  check (rng.eqv base) "Extrude empty range"
  let rng := base.copy.extrude lo hi
  check (rng.volume == base.volume * (hi - lo)) "Extrude existing range"
  return true

/-- test_range.cpp:126-170 `test_resize`. -/
def rangeResize (base : List Int) (lower upper : List Int) (volume : Int) (lower' upper' : List Int) : Res Bool := do
  let _ ← Range.ofLengths base.length base
  let n := lower.length
  let rng ← Range.ofBounds n lower upper
  check (rng.numDims == n) "Resize num_dims test"
  let a ← every n fun i => do return (← rng.lower i) == (← vget lower i)
  let b ← every n fun i => do return (← rng.upper i) == (← vget upper i)
  check a "Resize lower test"
  check b "Resize upper test"
  check (rng.volume == volume) "Resize volume test"
  let new ← Range.ofBounds lower'.length lower' upper'
  let rng := new.copy
  check (rng.eqv new) "Resize from existing range"
  return true

/-- test_range.cpp:180-204: a range shifted or set in dimension 1, compared with the original. -/
def moved (rng base : Range) (lo hi : Int) : Res Unit := do
  check (rng.neqv base) "did something test"
  check ((← rng.lower 1) == lo) "lower test"
  check ((← rng.upper 1) == hi) "upper test"
  check ((← vget rng.stride 0) == (← vget base.stride 0)) "stride test"
  check (rng.volume == base.volume) "volume test"

/-- test_range.cpp:172-225 `test_functionality`: range `[0,a) × [0,b) × [0,c)`, shift by `s`, set to `[lo, hi)`, inner range `[l, h)` in each dimension, set to
`[lo', hi')` in dimension 1. -/
def rangeFunctionality (a b c s lo hi l h lo' hi' : Int) : Res Bool := do
  let base ← Range.ofLengths 3 [a, b, c]
  let rng ← base.copy.shift 1 s
  moved rng base s (b + s)
  let rng ← base.copy.set 1 lo hi
  moved rng base lo hi
  let rng := base.copy
  let inner := (Range.empty.extrude l h).extrude l h
  check (!rng.includes inner) "Include sub-range dimension mismatch fail test"
  let inner := inner.extrude l h
  check (rng.includes inner) "Include sub-range test"
  let inner ← inner.set 1 lo' hi'
  check (!rng.includes inner) "Include sub-range oversized fail test"
  return true

/-- test_indexer.cpp:12-36 `test_constructors`. -/
def indexerConstructors (dims : List Int) : Res Bool := do
  check ((⟨.empty, []⟩ : IFace Int).rng.volume == 0) "Empty Indexer Interface Constructor"
  let rng ← Range.ofLengths dims.length dims
  let ii ← IFace.make (0 : Int) rng
  check (ii.rng.numDims == dims.length) "Indexer Interface range construction test"
  let ii2 ← IFace.copyCtor (0 : Int) ii
  check (ii2.rng.numDims == dims.length) "Indexer Interface copy construction test"
  return true

/-- test_indexer.cpp:38-74 `test_functionality`: range `[a,b) × [c,d)`, resized to `[0,n)`, filled with `v`. -/
def indexerFunctionality (a b c d n v : Int) : Res Bool := do
  let rng := (Range.empty.extrude a b).extrude c d
  let rng1 := Range.empty.extrude 0 n
  let ii ← IFace.make (0 : Int) rng
  let ii ← ii.resize 0 rng1
  check (ii.rng.volume == n) "Indexer Interface resize test"
  let ii ← IFace.make (0 : Int) rng
  let ii := ii.fill v
  check ((← vget ii.data 0) == v && (← vget ii.data (ii.rng.volume - 1)) == v) "Fill test"
  let ii2 ← IFace.make (0 : Int) rng
  let p ← ii2.swap ii
  check ((← vget p.1.data 0) == v && (← vget p.1.data (p.1.rng.volume - 1)) == v) "Swap test"
  return true

/-- Number of rounds of a loop over an indexer (test_indexer.cpp:122-136, test_variable.cpp:44-53 `++num`). -/
noncomputable def count (i : Indexer) : Res Int := i.forEach (fun _ n => .ok (n + 1)) 0

/-- test_indexer.cpp:171-184, 203-213, 223-233: all cells of the container hold `v` if they lie in `fill`, else 0. The two flags `test_0_value` and
`test_v_value`. -/
noncomputable def coloured (ii : IFace Int) (fill : Range) (v : Int) : Res (Bool × Bool) :=
  (ii.indexer ii.rng).forEach (fun idx t => do
    let x0 ← vget idx.index 0
    let x1 ← vget idx.index 1
    let l0 ← fill.lower 0
    let u0 ← fill.upper 0
    let l1 ← fill.lower 1
    let u1 ← fill.upper 1
    if (l0 ≤ x0 ∧ x0 < u0) ∧ (l1 ≤ x1 ∧ x1 < u1) then
      if t.2 then do return (t.1, (← ii.get idx) == v) else return t
    else
      if t.1 then do return ((← ii.get idx) == 0, t.2) else return t) (true, true)

/-- Both flags asserted. test_indexer.cpp:182-183, 215-216, 235-236. -/
noncomputable def checkColoured (ii : IFace Int) (fill : Range) (v : Int) : Res Unit := do
  let t ← coloured ii fill v
  check t.1 "coloring red test"
  check t.2 "coloring black test"

/-- The index of an indexer is the lower corner of a range (test_indexer.cpp:104-105, 118-119, 158-159). -/
def atLower (idx : Indexer) (r : Range) : Res Unit := do
  check ((← vget idx.index 0) == (← r.lower 0)) "dim index test 0"
  check ((← vget idx.index 1) == (← r.lower 1)) "dim index test 1"

/-- test_indexer.cpp:77-243 `test_indexer`: the container has range `rng`, the other two ranges are `sub` and `fill`, all of two dimensions. Lines 140 and
147-148 extrude `rng`, not the range `rng3` they then ask an indexer for, which is empty; `rng` is not used after that (the container has its own copy).
`x`, `y`, `z` are the values filled in. -/
noncomputable def indexerIndexer (rng sub fill : Range) (x y z : Int) : Res Bool := do
  let ii ← IFace.make (0 : Int) rng
  check (!Indexer.default.ex) "Null Indexer not exists test"
  let idx := Indexer.make sub rng
  check idx.ex "Sub-range Indexer exists test"
  atLower idx sub
  let idx := ii.indexer .empty
  check (!idx.ex) "Null Indexer from Indexer Interface exists test"
  let idx := ii.indexer ii.rng
  check idx.ex "Indexer from Indexer Interface exists test"
  check (idx.linear == 0) "Indexer linear index initialized to zero test"
  atLower idx ii.rng
  let num ← count (ii.indexer ii.rng)
  check (num == rng.volume) "Indexer full iteration test"
  let num ← count (ii.indexer sub)
  check (num == sub.volume) "Indexer partial iteration test"
  let rng3 := Range.empty
  let idx := ii.indexer rng3
  check (!idx.ex) "Dimensional mismatch Indexer request from Indexer Interface does not exist test"
  let idx := ii.indexer rng3
  check (!idx.ex) "Super-range Indexer request from Indexer Interface does not exist test"
  let idx := ii.indexer fill
  atLower idx fill
  let ii := ii.fill 0
  let ii ← (ii.indexer fill).forEach (fun idx ii => ii.put idx x) ii
  checkColoured ii fill x
  let ii2 ← IFace.make (0 : Int) sub
  let ii2 ← ii2.pull (some ii) fill ii2.rng
  let t ← (ii2.indexer ii2.rng).forEach (fun idx t => if t then do return (← ii2.get idx) == x else return false) true
  check t "Sub-range pull test"
  let ii2 := ii2.fill y
  let ii ← ii.pull (some ii2) ii2.rng fill
  checkColoured ii fill y
  let ii ← ii.fillSub fill z
  checkColoured ii fill z
  return true

/-- test_variable.cpp:33-57: the assertions about a new variable. `ext` is the mesh with its ghost cells, `n` its number of dimensions. The sizes are compared as integers (in the code some of them are
converted to `size_t`; none is negative). -/
noncomputable def checkVariable (var : Var Int) (name : String) (comps : List String) (basis : Basis) (ext : Range) (n : Nat) : Res Unit := do
  check (var.name == name) "Main constructor name test"
  check (var.comps == comps) "Main constructor component names test"
  let num ← (var.chunks.indexer var.chunks.rng).forEach (fun idx num => do
    let c ← var.chunks.get idx
    check (c.arr.rng.volume == ext.volume * comps.length * basis.points) "Main constructor volume test"
    check ((← c.arr.rng.length n) == basis.points) "Main constructor basis range test"
    check ((← c.arr.rng.length (n + 1)) == comps.length) "Main constructor component range test"
    return num + 1) (0 : Int)
  check (num == 1) "Main constructor number of datachunks test"

/-- test_variable.cpp:12-59 `test_variable`. -/
noncomputable def variableTest (name : String) (comps : List String) (dims : List Int) (g : Int) : Res Bool := do
  check ((⟨.empty, []⟩ : IFace Int).rng.volume == 0) "Empty Constructor"
  let basis := Basis.volumeAverage
  let n := dims.length
  let rng ← Range.ofLengths n dims
  let ext ← Chunk.expandLoop g n rng.copy
  let var ← Var.make (0 : Int) name comps basis rng g
  checkVariable var name comps basis ext n
  return true

/-- test_range.cpp:227-232, with the numbers written there. -/
def testRange : Res Bool := group
  [rangeConstructors [7, 4, 3, 1, 8, 9, 2] (7 * 4 * 3 * 1 * 8 * 9 * 2) [1, -20, 8] [7, -10, 9], rangeExtrusion 10 10 10 (-51) (-41),
   rangeResize [10, 10, 10] [2, 7] [5, 9] 6 [-2, 90] [48, 982], rangeFunctionality 10 10 10 5 5 15 2 4 (-1) 11]

/-- test_indexer.cpp:245-249, with the numbers written there. -/
noncomputable def testIndexer : Res Bool := group
  [indexerConstructors [7, 4, 3, 1, 8, 9, 2], indexerFunctionality (-2) 4 (-5) 90 100 17,
   indexerIndexer ((Range.empty.extrude 0 15).extrude 0 25) ((Range.empty.extrude 9 13).extrude 3 7) ((Range.empty.extrude 1 5).extrude 9 13) 21 7 15]

/-- test_variable.cpp:61-63, with the values written there. -/
noncomputable def testVariable : Res Bool := group [variableTest "CoMpLeX VaRiAbLe NaMe" ["A", "B", "C"] [7, 4, 3, 1] 3]

end QK.Tests
