import Verif.Model.Manager
/-
Model of the end of life of a `qk::variable::variable_manager` (/repo/src/variable/variable_manager.{h,cpp}): what its destructor
frees, and the copies that the compiler allows.

`addVar` (Model/Manager.lean) puts every variable it creates with `new` at the next position of `heap`, so the positions below
`heap.length` are the results of all executions of `new` for this manager. Nothing else in /repo uses `new` or `delete`; all other
storage belongs to standard containers.
-/
namespace QK

/-- `delete p` where `live` are the addresses that are allocated: any other address is undefined behaviour. (Deleting a null pointer
does nothing; the model has no null entries, see `addVar`.) variable_manager.cpp:24. -/
def deleteAt (live : List Nat) (a : Nat) : Res (List Nat) :=
  if a ∈ live then .ok (live.erase a) else .ub "delete of storage that is not allocated"

namespace Mgr
variable {α : Type}

/-- variable_manager.cpp:60: what `new` has returned. -/
def allocated (m : Mgr α) : List Nat := List.range m.heap.length

/-- variable_manager.cpp:21-28, the destructor: `delete` of every pointer in the map, in the order of the map. What is still allocated
afterwards is returned. Setting the pointers to `NULL` and clearing the map (25, 27) have no further effect. -/
def destroy (m : Mgr α) (live : List Nat) : Res (List Nat) := m.vars.foldlM (fun live p => deleteAt live p.2) live

/-- variable_manager.h:12-59 declares no copy constructor, so `variable_manager b(a)` copies the members one by one: the reference to
the grid and the map with its pointers. -/
def copy (m : Mgr α) : Mgr α := m

end Mgr
end QK
