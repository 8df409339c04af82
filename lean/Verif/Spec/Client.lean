import Verif.Model.Solvers
import Verif.Spec.Vtk
/-
Vocabulary for programs that use the library: any program made of calls of its solvers (or of solvers of its own), loops and
branches, and a checker that decides from the text of such a program, the mesh and the ids alone whether its calls fit together.
`ssprk2_advection` is left out (its parallel loop has a data race, C57). The initial conditions enter as `own` (`C123_initial`).
-/
namespace QK

/-- A call that a program may make: `variable_manager::output_variable`, `set_dt`, `set_time`, and `solve` of the solvers in
/repo/src/solver. `own` is a solver of the program itself, derived from `qk::solver::solver` (solver/solver.h:17-58), that reads the
variables `reads` and writes the variables `writes`. -/
inductive Call (α : Type) where
  | output (id : VarId)
  | setDt (t : α)
  | setTime (t : α)
  | fill (outs : List VarId) (value : α)
  | swap (outs : List VarId)
  | periodic (dims : List Int) (outs : List VarId)
  | copyOut (dims : List Int) (outs : List VarId)
  | noSlip (dims : List Int) (outs : List VarId)
  | freeSlip (dims : List Int) (outs : List VarId)
  | conductingWall (dims : List Int) (outs : List VarId)
  | euler (gamma : α) (ins outs : List VarId)
  | maxwell (c : α) (ins outs : List VarId)
  | lorentz (com : α) (ins outs : List VarId)
  | current (mults : List α) (ins outs : List VarId)
  | rk1 (ins outs : List VarId) (tag : Int)
  | ssprk3 (ins outs : List VarId) (tag : Int)
  | own (solve : SM (Mgr α) Unit) (reads writes : List VarId)

/-- Programs made of calls. A branch may look at everything in the manager. -/
inductive Client (α : Type) where
  | call (c : Call α)
  | skip
  | seq (p q : Client α)
  | loop (n : Nat) (p : Client α)
  | branch (b : Mgr α → Bool) (p q : Client α)

namespace Call
variable {α : Type}

/-- What a call does (buffers aligned as `ssprk3` assumes, C68). -/
noncomputable def run [Arith α] : Call α → SM (Mgr α) Unit
  | output id => do
    let _ ← Solve.outputVar id
    return ()
  | setDt t => SM.modifyRes (fun m => .ok (m.setDt t))
  | setTime t => SM.modifyRes (fun m => .ok (m.setTime t))
  | fill outs value => Solve.fill outs value
  | swap outs => Solve.swap outs
  | periodic dims outs => Solve.periodic dims outs
  | copyOut dims outs => Solve.copyOut dims outs
  | noSlip dims outs => Solve.noSlip dims outs
  | freeSlip dims outs => Solve.freeSlip dims outs
  | conductingWall dims outs => Solve.conductingWall dims outs
  | euler gamma ins outs => Solve.euler gamma ins outs
  | maxwell c ins outs => Solve.maxwell c ins outs
  | lorentz com ins outs => Solve.lorentz com ins outs
  | current mults ins outs => Solve.current mults ins outs
  | rk1 ins outs tag => Solve.rk1 ins outs tag
  | ssprk3 ins outs tag => Solve.ssprk3 true ins outs tag
  | own solve _ _ => solve

/-- The variables a call may write. -/
def writes : Call α → List VarId
  | output id => [id]
  | setDt _ | setTime _ => []
  | fill outs _ | swap outs | periodic _ outs | copyOut _ outs | noSlip _ outs | freeSlip _ outs | conductingWall _ outs => outs
  | euler _ _ outs | maxwell _ _ outs | lorentz _ _ outs | current _ _ outs => outs
  | rk1 _ outs _ => outs.take 1
  | ssprk3 _ outs _ => outs.take 3
  | own _ _ outs => outs

end Call

/-- What the checker knows at a point of a program: variables that exist, and whether `set_dt` was called. -/
structure Known where
  ids : List VarId
  dt : Bool

namespace Client
variable {α : Type}

noncomputable def run [Arith α] : Client α → SM (Mgr α) Unit
  | call c => c.run
  | skip => return ()
  | seq p q => do p.run; q.run
  | loop n p => n.rec (return ()) (fun _ more => do p.run; more)
  | branch b p q => do
    let m ← SM.get
    if b m then p.run else q.run

/-- The variables a program may write. -/
def writes : Client α → List VarId
  | call c => c.writes
  | skip => []
  | seq p q => p.writes ++ q.writes
  | loop _ p => p.writes
  | branch _ p q => p.writes ++ q.writes

/-- The solvers of the program itself. -/
def owns : Client α → List (SM (Mgr α) Unit × List VarId × List VarId)
  | call (.own f r w) => [(f, r, w)]
  | call _ | skip => []
  | seq p q => p.owns ++ q.owns
  | loop _ p => p.owns
  | branch _ p q => p.owns ++ q.owns

end Client

/-- Effect of code that only writes the variables `ws`: no other variable changes, these exist, and the manager is in order. -/
structure Only {α : Type} (S : VarId → Prop) (ws : List VarId) (m m' : Mgr α) : Prop where
  good : m'.Good S
  laid : m'.Laid
  grid : m'.grid = m.grid
  dt : m.dt ≠ none → m'.dt ≠ none
  kept : ∀ id, id ∉ ws → m'.contents id = m.contents id
  exist : ∀ id ∈ ws, m'.contents id ≠ none

/-- A solver of the program itself is as it should be: if the variables it reads exist, it returns and has only written those it says. -/
def Behaves {α : Type} (S : VarId → Prop) (g : Rectilinear α) (f : SM (Mgr α) Unit × List VarId × List VarId) : Prop :=
  ∀ m : Mgr α, m.Good S → m.Laid → m.grid = g → (∀ id ∈ f.2.1, m.contents id ≠ none) → ∃ m', f.1 m = .ok () m' ∧ Only S f.2.2 m m'

namespace Known

/-- The directions exist and the mesh has at least two cells along each of them. -/
def directions (M : Spec.Box) (dims : List Int) : Bool :=
  dims.all fun d => decide (0 ≤ d ∧ d < M.length ∧ 2 ≤ Spec.hi M d.toNat - Spec.lo M d.toNat)

/-- The variable has values. -/
def hasValues (id : VarId) : Bool := decide (1 ≤ id.basis.points ∧ 1 ≤ id.comps.length)

/-- The variables are stored in the same way, `n` components each. -/
def alike (n : Nat) (ids : List VarId) : Bool :=
  ids.all fun id => decide (id.comps.length = n ∧ 1 ≤ id.basis.points) && ids.all fun id' => decide (id.basis.points = id'.basis.points)

/-- The two variables of each pair are stored in the same way. -/
def pairs : List VarId → Bool
  | x :: y :: ids => decide (x.basis.points = y.basis.points ∧ x.comps.length = y.comps.length) && pairs ids
  | [] => true
  | [_] => false

variable {α : Type}

/-- Does a call fit what is known? -/
def allows (M : Spec.Box) (k : Known) : Call α → Bool
  | .output _ | .setDt _ | .setTime _ | .fill _ _ => true
  | .swap outs => outs.all (· ∈ k.ids) && decide outs.Nodup && pairs outs
  | .periodic dims outs | .copyOut dims outs | .noSlip dims outs | .freeSlip dims outs | .conductingWall dims outs =>
    directions M dims && outs.all hasValues
  | .euler _ [q] [r] => k.dt && decide (q ∈ k.ids ∧ q ≠ r ∧ M.length ≤ 4) && alike 5 [q, r]
  | .maxwell _ [q] [r] => decide (q ∈ k.ids ∧ q ≠ r) && alike 6 [q, r]
  | .lorentz _ [q, f] [r] =>
    decide (q ∈ k.ids ∧ f ∈ k.ids ∧ q ≠ r ∧ f ≠ r ∧ 1 ≤ q.basis.points ∧ f.basis.points = q.basis.points ∧ r.basis.points = q.basis.points ∧
      5 ≤ q.comps.length ∧ 6 ≤ f.comps.length ∧ r.comps.length = q.comps.length)
  | .current mults ins [r] =>
    decide (ins.length = mults.length ∧ 3 ≤ r.comps.length ∧ 1 ≤ r.basis.points) &&
      ins.all fun q => decide (q ∈ k.ids ∧ q ≠ r ∧ 4 ≤ q.comps.length ∧ q.basis.points = r.basis.points)
  | .rk1 [q, r] (q1 :: _) _ =>
    k.dt && decide (q ∈ k.ids ∧ r ∈ k.ids ∧ q ≠ q1 ∧ r ≠ q1 ∧ r.comps = q.comps ∧ q1.comps = q.comps ∧ r.basis = q.basis ∧ q1.basis = q.basis)
  | .ssprk3 [q, r] (q1 :: q2 :: q3 :: _) _ =>
    k.dt && decide (q ∈ k.ids ∧ r ∈ k.ids ∧ [q, r, q1, q2, q3].Nodup) &&
      [q, r, q1, q2, q3].all fun id => decide (id.comps = q.comps ∧ id.basis = q.basis)
  | .own _ reads _ => reads.all (· ∈ k.ids)
  | _ => false

/-- What is known after a call. -/
def after (k : Known) (c : Call α) : Known :=
  ⟨c.writes ++ k.ids, match c with | .setDt _ => true | _ => k.dt⟩

/-- The checker: what is known after the program, or `none` if some call does not fit. `names` are the ids of the program. -/
def check (names : List VarId) (M : Spec.Box) : Known → Client α → Option Known
  | k, .call c => if k.allows M c && c.writes.all (· ∈ names) then some (k.after c) else none
  | k, .skip => some k
  | k, .seq p q => (check names M k p).bind fun k' => check names M k' q
  | k, .loop n p => (check names M k p).map fun k' => if n = 0 then k else k'
  | k, .branch _ p q => (check names M k p).bind fun k1 => (check names M k q).map fun k2 =>
      ⟨k1.ids.filter (· ∈ k2.ids), k1.dt && k2.dt⟩

/-- What is known is true of a manager. -/
structure Holds (k : Known) (m : Mgr α) : Prop where
  exist : ∀ id ∈ k.ids, m.contents id ≠ none
  dt : k.dt = true → m.dt ≠ none

end Known

end QK
