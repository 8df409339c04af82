import Verif.Model.Indexer
/-
Model of `qk::indexer_interface<T>` (/repo/src/lib/indexer_interface.h) and of the free functions
of /repo/src/data/functions.h.

A container is its base `range` and the element vector `_data`. `_QK_RANGE_CHECK_` is not defined
in /repo, so `operator[]` and `data(...)` are unchecked: an index outside the vector is undefined
behaviour. A `Res.throw` outcome carries no new state: in every function below the check comes
before any write, as in the code. (`resize` is the exception: `std::vector::resize` of a negative
size throws after the range has been replaced; that state is not modelled.) `data()` is `&(_data[0])`,
strictly undefined for an empty vector; here taking the address is harmless, only accesses count.
-/
namespace QK

/-- indexer_interface.h:13, 160-162: base `range` and `_data`. -/
structure IFace (α : Type) where
  rng : Range
  data : List α
  deriving DecidableEq, Repr

namespace IFace
variable {α : Type}

/-- `std::vector::resize(n)`: keeps the first `n` elements, value-initialises new ones (`zero`);
a negative `int` converts to a huge `size_t` and `std::length_error` is thrown. indexer_interface.h:80. -/
def vresize (zero : α) (d : List α) (n : Int) : Res (List α) :=
  if n < 0 then .throw "std::length_error"
  else .ok (d.take n.toNat ++ List.replicate (n.toNat - d.length) zero)

/-- indexer_interface.h:77-81 `resize(range)`. -/
def resize (zero : α) (f : IFace α) (r : Range) : Res (IFace α) := do
  let rng := r.copy
  let data ← vresize zero f.data rng.volume
  return { rng := rng, data := data }

/-- indexer_interface.h:17-20 constructor from a range. -/
def make (zero : α) (r : Range) : Res (IFace α) := resize zero ⟨.empty, []⟩ r

/-- indexer_interface.h:21-24 copy constructor: only `resize(interface.range())`. -/
def copyCtor (zero : α) (f : IFace α) : Res (IFace α) := resize zero ⟨.empty, []⟩ f.rng

/-- indexer_interface.h:88-91 `indexer(range)`. -/
def indexer (f : IFace α) (r : Range) : Indexer := Indexer.make r f.rng

/-- indexer_interface.h:98-102 `operator[]` (read). -/
def get (f : IFace α) (i : Indexer) : Res α := vget f.data i.linear

/-- indexer_interface.h:104-108 `operator[]` (write). -/
def put (f : IFace α) (i : Indexer) (v : α) : Res (IFace α) := do
  let d ← vset f.data i.linear v
  return { f with data := d }

/-- indexer_interface.h:119-127 `data(const int * index)`: the element offset of the pointer;
the loop over the dimensions is the one of the indexer constructor. -/
def dataOffset (f : IFace α) (index : List Int) : Int :=
  Indexer.linearSum 0 index f.rng.dims f.rng.stride

/-- `*data(index)`: dereference of the pointer returned by `data(index)`. indexer_interface.h:119-138. -/
def dataAt (f : IFace α) (index : List Int) : Res α := vget f.data (f.dataOffset index)

/-- indexer_interface.h:31-38 `swap`. -/
def swap (a b : IFace α) : Res (IFace α × IFace α) :=
  if a.rng.volume ≠ b.rng.volume then .throw "qk::indexer_interface::swap : Volume mismatch."
  else .ok ({ a with data := b.data }, { b with data := a.data })

/-- indexer_interface.h:61-64 `fill(value)`. -/
def fill (f : IFace α) (v : α) : IFace α := { f with data := f.data.map (fun _ => v) }

/-- indexer_interface.h:66-75 `fill(sub_range, value)`. -/
noncomputable def fillSub (f : IFace α) (sub : Range) (v : α) : Res (IFace α) :=
  if f.rng.includes sub = false then
    .throw "qk::indexer_interface::fill : Requested range extends outside of interface bounds."
  else (f.indexer sub).forEach (fun i f => f.put i v) f

/-- Element read by a copy loop: from the source container, or from the destination itself when
both are the same object (`src = none`). indexer_interface.h:50, functions.h:30. -/
def srcGet (src : Option (IFace α)) (dst : IFace α) (i : Indexer) : Res α :=
  match src with
  | some s => s.get i
  | none => dst.get i

/-- indexer_interface.h:49-53, one round of the loop of `pull`. -/
def pullStep (src : Option (IFace α)) (p : Indexer × Indexer × IFace α) :
    Res ((Indexer × Indexer × IFace α) ⊕ IFace α) :=
  if p.1.ex then do
    let v ← srcGet src p.2.2 p.1
    let d ← p.2.2.put p.2.1 v
    let j ← p.2.1.next
    let i ← p.1.next
    return .inl (i, j, d)
  else .ok (.inr p.2.2)

/-- indexer_interface.h:40-54 `pull(interface, from_range, to_range)`; `src = none` when the
interface is the container itself. -/
noncomputable def pull (dst : IFace α) (src : Option (IFace α)) (fromR toR : Range) : Res (IFace α) :=
  if fromR.volume ≠ toR.volume then .throw "qk::indexer_interface::pull : Volume mismatch."
  else iter (pullStep src) (((src.getD dst).indexer fromR), (dst.indexer toR), dst)

/-- indexer_interface.h:56-59 `pull(interface)`: passes `this->range()` as *from* range and
`interface.range()` as *to* range. -/
noncomputable def pullAll (dst : IFace α) (src : Option (IFace α)) : Res (IFace α) :=
  dst.pull src dst.rng (src.getD dst).rng

/-- data/functions.h:28-38, one round of the loop of `copy_to` (the test comes last). -/
def copyStep (src : Option (IFace α)) (p : Indexer × Indexer × IFace α) :
    Res ((Indexer × Indexer × IFace α) ⊕ IFace α) := do
  let v ← srcGet src p.2.2 p.1
  let d ← p.2.2.put p.2.1 v
  let j ← p.2.1.next
  let i ← p.1.next
  if j.ex then return .inl (i, j, d) else return .inr d

/-- data/functions.h:17-39 `copy_to(from_chunk, from_range, to_chunk, to_range)`; `src = none` when
both chunks are the same object. -/
noncomputable def copyTo (src : Option (IFace α)) (fromR : Range) (dst : IFace α) (toR : Range) :
    Res (IFace α) :=
  if fromR.volume ≠ toR.volume then .throw "qk::data::copy_to : Array mismatch."
  else iter (copyStep src) (((src.getD dst).indexer fromR), (dst.indexer toR), dst)

/-- data/functions.h:41-51 `full_copy`: volume check, then `memcpy` of `volume` elements. Reading
past the end of either vector is undefined behaviour; a negative volume is a huge `size_t`. -/
def fullCopy (src dst : IFace α) : Res (IFace α) :=
  if src.rng.volume ≠ dst.rng.volume then .throw "qk::data::full_copy : Array mismatch."
  else if 0 ≤ src.rng.volume ∧ src.rng.volume ≤ src.data.length ∧ src.rng.volume ≤ dst.data.length then
    .ok { dst with data := src.data.take src.rng.volume.toNat ++ dst.data.drop src.rng.volume.toNat }
  else .ub "memcpy out of range"

end IFace

/-- Containers that client code can obtain through the public interface: construction, `resize`,
`fill`, `pull`, `swap`, `copy_to`, `full_copy`, element writes through an existing indexer of the container. indexer_interface.h:17-158, functions.h:17-51. -/
inductive IFace.Made {α : Type} (zero : α) : IFace α → Prop
  | make {r f} : r.Made → IFace.make zero r = .ok f → Made zero f
  | copyCtor {g f} : Made zero g → IFace.copyCtor zero g = .ok f → Made zero f
  | resize {g r f} : Made zero g → r.Made → g.resize zero r = .ok f → Made zero f
  | fill {g v} : Made zero g → Made zero (g.fill v)
  | fillSub {g r v f} : Made zero g → g.fillSub r v = .ok f → Made zero f
  | pull {g src a b f} : Made zero g → g.pull src a b = .ok f → Made zero f
  | copyTo {g src a b f} : Made zero g → IFace.copyTo src a g b = .ok f → Made zero f
  | fullCopy {g h f} : Made zero g → Made zero h → IFace.fullCopy h g = .ok f → Made zero f
  | put {g i v f} : Made zero g → g.put i v = .ok f → Made zero f
  | swapL {a b c d} : Made zero a → Made zero b → a.swap b = .ok (c, d) → Made zero c
  | swapR {a b c d} : Made zero a → Made zero b → a.swap b = .ok (c, d) → Made zero d

end QK
