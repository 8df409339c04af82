import Verif.Model.Grid
import Verif.Model.Variable
/-
Model of `qk::variable::variable_manager` (/repo/src/variable/variable_manager.{h,cpp}) and of code
that runs on it.

Storage created with `new` lives in `heap`; a `variable *` is a position in it. `std::map` is a list
sorted by the code's comparator, searched from the front for the first key that is not less than the
wanted one (the real red-black tree asks the comparator about some of these keys only; the results
agree whenever the comparator is a strict weak order on the keys involved and does not throw).
-/
namespace QK

/-- Outcome of running code on a state. A thrown exception leaves a state behind. Machinery of the model, no counterpart in the code. -/
inductive SRes (σ α : Type) where
  | ok (a : α) (s : σ)
  | throw (msg : String) (s : σ)
  | ub (why : String)
  | diverge

/-- Code running on a state. Machinery of the model, no counterpart in the code. -/
def SM (σ α : Type) : Type := σ → SRes σ α

namespace SM
variable {σ α β : Type}

/-- Machinery of the model, no counterpart in the code. -/
protected def bind (x : SM σ α) (f : α → SM σ β) : SM σ β := fun s =>
  match x s with
  | .ok a s' => f a s'
  | .throw m s' => .throw m s'
  | .ub w => .ub w
  | .diverge => .diverge

instance : Monad (SM σ) where
  pure a := fun s => .ok a s
  bind := SM.bind

instance : LawfulMonad (SM σ) := LawfulMonad.mk'
  (id_map := fun x => by
    funext s
    show SM.bind x _ s = x s
    unfold SM.bind
    cases h : x s <;> rfl)
  (pure_bind := fun _ _ => rfl)
  (bind_assoc := fun x f g => by
    funext s
    show SM.bind (SM.bind x f) g s = SM.bind x (fun a => SM.bind (f a) g) s
    unfold SM.bind
    cases h : x s <;> rfl)

/-- Read the state. Machinery of the model, no counterpart in the code. -/
def get : SM σ σ := fun s => .ok s s
/-- Replace the state. Machinery of the model, no counterpart in the code. -/
def set (s : σ) : SM σ Unit := fun _ => .ok () s
/-- `throw`. Machinery of the model, no counterpart in the code. -/
def raise (m : String) : SM σ α := fun s => .throw m s

/-- Code that does not change the state. Machinery of the model, no counterpart in the code. -/
def lift (x : Res α) : SM σ α := fun s =>
  match x with
  | .ok a => .ok a s
  | .throw m => .throw m s
  | .ub w => .ub w
  | .diverge => .diverge

/-- Code given as a state transformer. If it throws, the state kept is the one before it (the state
in the middle of a chunk-level function is not modelled: what C127 says about the numbers left behind by an exception holds for the
exceptions raised between such functions; C124 and C128 speak of what these functions do not change). Machinery of the model, no counterpart in the code. -/
def modifyRes (f : σ → Res σ) : SM σ Unit := fun s =>
  match f s with
  | .ok s' => .ok () s'
  | .throw m => .throw m s
  | .ub w => .ub w
  | .diverge => .diverge

end SM

/-- variable_manager.h:53-57. `_dt` and `_time` are uninitialised (`none`) until set. -/
structure Mgr (α : Type) where
  grid : Rectilinear α
  vars : List (VarId × Nat)
  heap : List (Var α)
  dt : Option α
  time : Option α

namespace Mgr
variable {α : Type}

/-- variable_manager.cpp:15-19. -/
def make (g : Rectilinear α) : Mgr α := { grid := g, vars := [], heap := [], dt := none, time := none }

/-- `std::map::find`. variable_manager.cpp:33, 47, 57, 98. -/
def find : List (VarId × Nat) → VarId → Res (Option Nat)
  | [], _ => .ok none
  | (k, a) :: t, id => do
    if ← k.lt id then find t id
    else if ← id.lt k then return none
    else return some a

/-- Insertion of a new key (`_variables[var] = ...` for a key that is not there): before the first key
that is not less. For a key that is there, `operator[]` returns the existing entry, which is
overwritten. variable_manager.cpp:60. -/
def insert : List (VarId × Nat) → VarId → Nat → Res (List (VarId × Nat))
  | [], id, v => .ok [(id, v)]
  | (k, a) :: t, id, v => do
    if ← k.lt id then
      let t' ← insert t id v
      return (k, a) :: t'
    else if ← id.lt k then return (id, v) :: (k, a) :: t
    else return (k, v) :: t

/-- variable_manager.h:42-43. -/
def setTime (t : α) (m : Mgr α) : Mgr α := { m with time := some t }
/-- variable_manager.h:43. -/
def setDt (t : α) (m : Mgr α) : Mgr α := { m with dt := some t }

end Mgr

namespace Solve
open SM
variable {α : Type}

/-- variable_manager.h:46 `dt()`; reading the uninitialised member is undefined behaviour. -/
def dt : SM (Mgr α) α := do
  let m ← get
  match m.dt with
  | some t => return t
  | none => lift (.ub "read of uninitialised _dt")

/-- variable_manager.h:45 `time()`. -/
def time : SM (Mgr α) α := do
  let m ← get
  match m.time with
  | some t => return t
  | none => lift (.ub "read of uninitialised _time")

/-- variable_manager.cpp:44-52 `input_variable`: the exception on line 49 is constructed but not
thrown, so a missing id dereferences `end()`. -/
def inputVar (id : VarId) : SM (Mgr α) Nat := do
  let m ← get
  match ← lift (Mgr.find m.vars id) with
  | some a => return a
  | none => lift (.ub "dereference of end()")

variable [Arith α]

/-- variable_manager.cpp:54-61 `add_variable`; 2 ghost layers (variable.h:36). In `_variables[var] = new …` (line 60) the order of
the two sides is unspecified before C++17: if the constructor throws, an entry with a null pointer may stay behind. The model
constructs first; a throwing constructor leaves the manager as it was. -/
def addVar (id : VarId) : SM (Mgr α) Unit := do
  let m ← get
  match ← lift (Mgr.find m.vars id) with
  | some _ => raise "qk::variable::variable_manager::add_variable : Variable already exists."
  | none =>
    let v ← lift (Var.make (Arith.lit 0) id.name id.comps id.basis m.grid.rng 2)
    let vars ← lift (Mgr.insert m.vars id m.heap.length)
    set { m with vars := vars, heap := m.heap ++ [v] }

/-- variable_manager.cpp:30-42 `output_variable`. -/
def outputVar (id : VarId) : SM (Mgr α) Nat := do
  let m ← get
  match ← lift (Mgr.find m.vars id) with
  | some a => return a
  | none =>
    addVar id
    inputVar id       -- second `find` and `*(itr->second)` (lines 36-41)

/-- `var[idx]` for the variable stored at `a`. indexer_interface.h:98-108. -/
def chunkAt (m : Mgr α) (a : Nat) (idx : Indexer) : Res (Chunk α) := do
  let v ← vget m.heap a
  v.chunks.get idx

/-- Assign the chunk `var[idx]`. indexer_interface.h:104-108. -/
def setChunk (m : Mgr α) (a : Nat) (idx : Indexer) (c : Chunk α) : Res (Mgr α) := do
  let v ← vget m.heap a
  let ch ← v.chunks.put idx c
  let h ← vset m.heap a { v with chunks := ch }
  return { m with heap := h }

/-- `for (idx = var.indexer(); idx.exists(); idx.next()) body` for the variable stored at `a`. bc_periodic.cpp:24 and the like. -/
noncomputable def forChunks (a : Nat) (body : Indexer → Mgr α → Res (Mgr α)) : SM (Mgr α) Unit :=
  modifyRes (fun m => do
    let v ← vget m.heap a
    (v.chunks.indexer v.chunks.rng).forEach body m)

/-- The common loop of solvers that update each chunk of each output variable:
`for id in ids: var = output_variable(id); for chunk of var: chunk = f(chunk)`. bc_periodic.cpp:21-36 and the like. -/
noncomputable def eachOutput (f : Chunk α → Res (Chunk α)) : List VarId → SM (Mgr α) Unit
  | [] => return ()
  | id :: ids => do
    let a ← outputVar id
    forChunks a (fun idx m => do
      let c ← chunkAt m a idx
      let c' ← f c
      setChunk m a idx c')
    eachOutput f ids

/-- fill.cpp:14-25 `fill::solve`. -/
noncomputable def fill (outs : List VarId) (value : α) : SM (Mgr α) Unit :=
  eachOutput (fun c => .ok { c with arr := c.arr.fill value }) outs

/-- `a.swap(b)` (indexer_interface.h:31-38) on the variables stored at `a` and `b`. Swapping a vector
with itself changes nothing. -/
def swapVars (a b : Nat) (m : Mgr α) : Res (Mgr α) := do
  let va ← vget m.heap a
  let vb ← vget m.heap b
  let p ← va.chunks.swap vb.chunks
  if a = b then return m else
  let h ← vset m.heap a { va with chunks := p.1 }
  let h ← vset h b { vb with chunks := p.2 }
  return { m with heap := h }

/-- swap.cpp:33-40. -/
def swapLoop : List VarId → SM (Mgr α) Unit
  | x :: y :: ids => do
    let a ← outputVar x
    let b ← outputVar y
    modifyRes (swapVars a b)
    swapLoop ids
  | _ => return ()

/-- swap.cpp:25-42 `swap::solve`. -/
def swap (outs : List VarId) : SM (Mgr α) Unit :=
  if outs.length % 2 ≠ 0 then raise "qk::solver::swap::solve : Must have even number of output variables."
  else swapLoop outs

end Solve
end QK
