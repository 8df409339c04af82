import Verif.Model.Indexer
/-
`int` arithmetic with overflow. The functions of `qk::range` and `qk::indexer` that compute with `int`, once more, with
every intermediate result checked: a result outside 32 bits is undefined behaviour (signed overflow). Only `+`, `-`, `*`
on `int` are checked; loop counters over dimensions stay below `_num_dims`, which is an `int` itself.
-/
namespace QK

/-- The result of an `int` operation: `x` if it fits in 32 bits, undefined behaviour otherwise. Machinery of the model, no counterpart in the code. -/
def i32 (x : Int) : Res Int := if -2147483648 ≤ x ∧ x ≤ 2147483647 then .ok x else .ub "signed overflow"

namespace Range

/-- range.cpp:132-136 `length`, on the pair of bounds. -/
def len32 (d : Int × Int) : Res Int := i32 (d.2 - d.1)

/-- range.cpp:92-95, the stride loop (see `strideLoop`). -/
def strideLoop32 : List (Int × Int) → Res (List Int)
  | [] => .ok []
  | [_] => .ok [1]
  | _ :: d :: ds => do
    match ← strideLoop32 (d :: ds) with
    | [] => return []     -- not reached
    | s :: ss => do
      let l ← len32 d
      let t ← i32 (s * l)
      return t :: s :: ss

/-- range.cpp:73-98 `setup`. -/
def setup32 (dims : List (Int × Int)) : Res Range := do
  let s ← strideLoop32 dims
  return ⟨dims, s⟩

/-- range.cpp:144-150 `volume`. -/
def volume32 (r : Range) : Res Int :=
  match r.stride, r.dims with
  | s :: _, d :: _ => do
    let l ← len32 d
    i32 (s * l)
  | _, _ => .ok 0

/-- range.cpp:152-164 `set`. -/
def set32 (r : Range) (dim : Int) (lo hi : Int) : Res Range := do
  let ds ← vset r.dims dim (lo, hi)
  setup32 ds

/-- range.cpp:114-118 `expand`. -/
def expand32 (r : Range) (dim : Int) (a b : Int) : Res Range := do
  let l ← r.lower dim
  let u ← r.upper dim
  let l' ← i32 (l + a)
  let u' ← i32 (u + b)
  r.set32 dim l' u'

/-- range.cpp:120-124 `shift`. -/
def shift32 (r : Range) (dim : Int) (s : Int) : Res Range := do
  let l ← r.lower dim
  let u ← r.upper dim
  let l' ← i32 (l + s)
  let u' ← i32 (u + s)
  r.set32 dim l' u'

/-- range.cpp:100-112 `extrude`. -/
def extrude32 (r : Range) (lo hi : Int) : Res Range := setup32 (r.dims ++ [(lo, hi)])

end Range

namespace Indexer

/-- indexer.cpp:32-35. -/
def linearSum32 : Int → List Int → List (Int × Int) → List Int → Res Int
  | acc, x :: xs, d :: ds, s :: ss => do
    let a ← i32 (x - d.1)
    let b ← i32 (a * s)
    let c ← i32 (acc + b)
    linearSum32 c xs ds ss
  | acc, _, _, _ => .ok acc

/-- indexer.cpp:18-38, constructor. -/
def make32 (sub sup : Range) : Res Indexer := do
  let base ← Range.setup32 sup.dims
  let s ← Range.setup32 sub.dims
  if 0 < base.numDims then
    if base.includes s then
      let index := s.dims.map Prod.fst
      let l ← linearSum32 0 index base.dims base.stride
      return { sup := base, sub := s, linear := l, ex := true, index := index }
    else return { sup := base, sub := s, linear := 0, ex := false, index := List.replicate base.numDims 0 }
  else return { sup := base, sub := s, linear := 0, ex := false, index := [] }

/-- indexer.cpp:87-96 `increment(dim)`. -/
def increment32 (i : Indexer) (dim : Int) : Res Indexer := do
  let s ← vget i.sup.stride dim
  let x ← vget i.index dim
  let l ← i32 (i.linear + s)
  let x' ← i32 (x + 1)
  let index ← vset i.index dim x'
  return { i with linear := l, index := index }

/-- indexer.cpp:115-128 `recursive_increment_dim(dim)` with `dim = n - 1`. -/
def recInc32 : Nat → Indexer → Res Indexer
  | 0, i => .ok { i with ex := false }
  | n+1, i => do
    let x ← vget i.index n
    let u ← i.sub.upper n
    let u1 ← i32 (u - 1)
    if x = u1 then
      let l ← i.sub.lower n
      let index ← vset i.index n l
      let len ← Range.len32 (l, u)
      let s ← vget i.sup.stride n
      let l1 ← i32 (len - 1)
      let p ← i32 (l1 * s)
      let lin ← i32 (i.linear - p)
      recInc32 n { i with index := index, linear := lin }
    else i.increment32 n

/-- indexer.cpp:109-113 `next()`. -/
def next32 (i : Indexer) : Res Indexer := recInc32 i.sup.numDims i

/-- indexer.cpp:135-143 `final_linear_index()`, the loop. -/
def finalLoop32 : Int → List (Int × Int) → List (Int × Int) → List Int → Res Int
  | acc, d :: ds, e :: es, s :: ss => do
    let a ← i32 (d.2 - e.2)
    let b ← i32 (a * s)
    let c ← i32 (acc - b)
    finalLoop32 c ds es ss
  | acc, [], _, _ => .ok acc
  | _, _, _, _ => .ub "vector index out of range"

/-- indexer.cpp:135-143 `final_linear_index()`. -/
def finalLinear32 (i : Indexer) : Res Int := do
  let v ← i.sup.volume32
  finalLoop32 v i.sup.dims i.sub.dims i.sup.stride

/-- The loop `for (idx = ...; idx.exists(); idx.next()) body(idx)` over a state `σ`. bc_periodic.cpp:24 and the like. -/
noncomputable def forEach32 {σ : Type _} (i : Indexer) (body : Indexer → σ → Res σ) (s : σ) : Res σ :=
  iter (fun p : Indexer × σ =>
    if p.1.ex then do
      let s' ← body p.1 p.2
      let i' ← p.1.next32
      return .inl (i', s')
    else .ok (.inr p.2)) (i, s)

end Indexer
end QK
