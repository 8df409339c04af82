import Verif.Spec.Fields
import Verif.Spec.Sources
import Verif.Spec.Vtk
import Verif.Model.Program
/-
Specification vocabulary for the coupled programs: what one stage does to the fields. Fields are functions of the array
position (mesh cell, basis point, component), as in `Spec/Sources.lean`.
-/
namespace QK.Spec
variable {α : Type} [Arith α]

/-- `u'` is `u` with its face ghost cells set: mirror values at walls, with the opposite sign for the components in `flip`;
values one period away in periodic directions. Values inside are unchanged. (`M` mesh, `D` basis points × components. Ghost
cells that lie outside in two directions are not constrained: nothing reads them.) -/
structure Filled (M D : Box) (walls : List Nat) (flip : Int → Prop) (periodic : List Nat) (u u' : Cell → α) : Prop where
  inside : ∀ x, InBox (M ++ D) x → u' x = u x
  wall_flip : ∀ i ∈ walls, ∀ x, FaceGhost 2 (M ++ D) i x → flip (component x) →
    u' x = u (mirrorImage 2 (M ++ D) i x) * Arith.lit (-1)
  wall_keep : ∀ i ∈ walls, ∀ x, FaceGhost 2 (M ++ D) i x → ¬ flip (component x) → u' x = u (mirrorImage 2 (M ++ D) i x)
  wrap : ∀ i ∈ periodic, ∀ x, FaceGhost 2 (M ++ D) i x → u' x = u (periodicImage 2 (M ++ D) i x)

/-- Effect of a wall condition in the directions `ds` on a field: face ghost cells hold the mirror values, with the sign changed where `flip` says so; all other cells keep their
values. -/
structure Walled (M D : Box) (ds : List Nat) (flip : Int → Prop) (u u' : Cell → α) : Prop where
  flipped : ∀ i ∈ ds, ∀ x, FaceGhost 2 (M ++ D) i x → flip (component x) → u' x = u (mirrorImage 2 (M ++ D) i x) * Arith.lit (-1)
  kept : ∀ i ∈ ds, ∀ x, FaceGhost 2 (M ++ D) i x → ¬ flip (component x) → u' x = u (mirrorImage 2 (M ++ D) i x)
  rest : ∀ x, InBox (grow 2 M ++ D) x → (∀ i ∈ ds, ¬ FaceGhost 2 (M ++ D) i x) → u' x = u x

/-- Effect of the periodic condition: face ghost cells hold the values one period away. -/
structure Wrapped (M D : Box) (ds : List Nat) (u u' : Cell → α) : Prop where
  ghost : ∀ i ∈ ds, ∀ x, FaceGhost 2 (M ++ D) i x → u' x = u (periodicImage 2 (M ++ D) i x)
  rest : ∀ x, InBox (grow 2 M ++ D) x → (∀ i ∈ ds, ¬ FaceGhost 2 (M ++ D) i x) → u' x = u x

/-- Components that change sign at a no-slip wall: the momenta. -/
def isMomentum (k : Int) : Prop := k = 1 ∨ k = 2 ∨ k = 3
/-- Components that change sign at a conducting wall as coded: electric field and first component of the magnetic field. -/
def isWallField (k : Int) : Prop := k = 0 ∨ k = 1 ∨ k = 2 ∨ k = 3

/-- `r` is the rate of change of a fluid `u` in a field `w`, in the cells of `M` × points: flux differences, started from 0,
then the Lorentz force. -/
def FluidRate (M : Box) (p : Int) (dx : Nat → α) (gamma com : α) (u w r : Cell → α) : Prop :=
  ∃ r0 : Cell → α, (∀ x, InBox (M ++ [(0, p)]) x → ∀ j : Nat, j < 5 → r0 (x ++ [(j : Int)]) =
      fvUpdate (fun dim => fluxOf (Euler.hll gamma dim)) 5 (fun x j => u (x ++ [(j : Int)])) dx (List.range M.length) x j (Arith.lit 0)) ∧
    LorentzAdded com (M ++ [(0, p)]) u w r0 r

/-- Likewise for the field `w`, with the current of the fluids. -/
def FieldRate (M : Box) (p : Int) (dx : Nat → α) (c : α) (fluids : List (α × (Cell → α))) (w r : Cell → α) : Prop :=
  ∃ r0 : Cell → α, (∀ x, InBox (M ++ [(0, p)]) x → ∀ j : Nat, j < 6 → r0 (x ++ [(j : Int)]) =
      fvUpdate (fun dim => fluxOf (Maxwell.rusanov c dim)) 6 (fun x j => w (x ++ [(j : Int)])) dx (List.range (min M.length 3)) x j (Arith.lit 0)) ∧
    CurrentAdded (M ++ [(0, p)]) fluids r0 r

/-- The value of stage `k` of the integrator from the value at the start of the step, the value of the previous stage and
the rate. -/
def rkStage (k : Nat) (t u0 u r : α) : α :=
  match k with
  | 0 => u0 + t * r
  | 1 => Arith.lit (3 / 4) * u0 + Arith.lit (1 / 4) * u + Arith.lit (1 / 4) * t * r
  | _ => (u0 + Arith.lit 2 * (u + t * r)) / Arith.lit 3

/-- The fields of the three species. -/
structure State (α : Type) where
  e : Cell → α
  i : Cell → α
  f : Cell → α

end QK.Spec

namespace QK
open Spec

/-- The five ids. -/
def Five.ids (v : Five) : List VarId := [v.q, v.rhs, v.q1, v.q2, v.q3]

/-- The ids of the plasma programs: three integrators with separate variables on the same basis; fluids have 5 components,
the field has 6. -/
structure Plasma.Vars {α : Type} (S : VarId → Prop) (P : Plasma α) (p : Int) : Prop where
  e : RKVars S P.e.q P.e.rhs P.e.q1 P.e.q2 P.e.q3
  i : RKVars S P.i.q P.i.rhs P.i.q1 P.i.q2 P.i.q3
  f : RKVars S P.f.q P.f.rhs P.f.q1 P.f.q2 P.f.q3
  separate : (P.e.ids ++ (P.i.ids ++ P.f.ids)).Nodup
  e_comps : P.e.q.comps.length = 5
  i_comps : P.i.q.comps.length = 5
  f_comps : P.f.q.comps.length = 6
  e_points : P.e.q.basis.points = p
  i_points : P.i.q.basis.points = p
  f_points : P.f.q.basis.points = p
  points : 1 ≤ p
  mults : P.mults.length = 2

/-- The mesh and the dimensions of the boundary conditions. -/
structure BCMesh {α : Type} (grid : Rectilinear α) (walls periodic : List Nat) : Prop where
  widths : grid.dxs.length = grid.rng.dims.length
  four : grid.rng.dims.length ≤ 4
  sides : ∀ i ∈ walls, i < grid.rng.dims.length ∧ 2 ≤ hi grid.rng.dims i - lo grid.rng.dims i
  wraps : ∀ i ∈ periodic, i < grid.rng.dims.length ∧ 2 ≤ hi grid.rng.dims i - lo grid.rng.dims i
  disjoint : ∀ i ∈ walls, i ∉ periodic

/-- Cell widths by dimension. -/
def Rectilinear.dxAt {α : Type} [Arith α] (grid : Rectilinear α) (dim : Nat) : α := grid.dxs.getD dim (Arith.lit 0)

namespace Spec
variable {α : Type} [Arith α]

/-- One stage of a plasma program on fields: from the state at the start of the step (`start`) and the state of the previous stage
(`cur`) it fills ghost cells (`cur'`), computes rates and the next state. In the first stage `start` is the state whose ghost
cells were filled. -/
structure PlasmaStage (P : Plasma α) (grid : Rectilinear α) (p : Int) (ws ps : List Nat) (t : α) (k : Nat)
    (start cur cur' rate next : State α) : Prop where
  fill_e : Filled grid.rng.dims [(0, p), (0, 5)] ws isMomentum ps cur.e cur'.e
  fill_i : Filled grid.rng.dims [(0, p), (0, 5)] ws isMomentum ps cur.i cur'.i
  fill_f : Filled grid.rng.dims [(0, p), (0, 6)] ws isWallField ps cur.f cur'.f
  rate_e : FluidRate grid.rng.dims p grid.dxAt P.gamma P.comE cur'.e cur'.f rate.e
  rate_i : FluidRate grid.rng.dims p grid.dxAt P.gamma P.comI cur'.i cur'.f rate.i
  rate_f : FieldRate grid.rng.dims p grid.dxAt P.c (P.mults.zip [cur'.e, cur'.i]) cur'.f rate.f
  next_e : ∀ x, next.e x = rkStage k t (start.e x) (cur'.e x) (rate.e x)
  next_i : ∀ x, next.i x = rkStage k t (start.i x) (cur'.i x) (rate.i x)
  next_f : ∀ x, next.f x = rkStage k t (start.f x) (cur'.f x) (rate.f x)

/-- One time step on fields: three stages. -/
def PlasmaStep (P : Plasma α) (grid : Rectilinear α) (p : Int) (ws ps : List Nat) (t : α) (q q' : State α) : Prop :=
  ∃ q0 r0 q1 q1' r1 q2 q2' r2 : State α, PlasmaStage P grid p ws ps t 0 q0 q q0 r0 q1 ∧
    PlasmaStage P grid p ws ps t 1 q0 q1 q1' r1 q2 ∧ PlasmaStage P grid p ws ps t 2 q0 q2 q2' r2 q'

end Spec

/-- The variables at position `k` of the three vectors hold the state `s`. -/
structure Plasma.Holds {α : Type} (P : Plasma α) (m : Mgr α) (k : Nat) (s : State α) : Prop where
  e : m.Stores (P.e.at k) s.e
  i : m.Stores (P.i.at k) s.i
  f : m.Stores (P.f.at k) s.f

end QK

namespace QK.Spec
variable {α : Type}

/-- The data blocks of a variable that has one basis point: for each component the values of the field in all cells, the first
dimension varying fastest. -/
def fieldBlocks (M : Box) (id : VarId) (u : Cell → α) : List (List (Tok α)) :=
  id.comps.zipIdx.map fun p => scalarBlock id.name p.1 ((vtkCells M).map fun x => u (x ++ [0, (p.2 : Int)]))

/-- The file shows the state: a VTK file for the mesh `M` with the blocks of all variables. (Origin and spacing: see C42.) -/
def FileShows (M : Box) (P : Plasma α) (s : State α) (file : List (Tok α)) : Prop :=
  ∃ o sp : α × α × α, file = vtkFile (points M 0, points M 1, points M 2) o sp (boxVolume M)
    (fieldBlocks M P.e.q s.e ++ fieldBlocks M P.i.q s.i ++ fieldBlocks M P.f.q s.f)

end QK.Spec

namespace QK
open Spec
variable {α : Type} [Arith α]

/-- The grid of a run: made by the constructor, at most three dimensions. -/
structure RunGrid (g : Rectilinear α) (ws ps : List Nat) : Prop where
  made : ∃ (range : Range) (s w : List α), Rectilinear.make range s w = .ok g
  three : g.rng.dims.length ≤ 3
  bcs : BCMesh g ws ps

/-- What is needed to run: variables, configuration of the boundary conditions, basis. -/
structure RunReady (S : VarId → Prop) (P : Plasma α) (ws ps : List Nat) : Prop where
  vars : P.Vars S 1
  walls : P.walls = ws.map (Nat.cast : Nat → Int)
  wraps : P.periodic.getD [] = ps.map (Nat.cast : Nat → Int)
  basis : P.e.q.basis = Basis.volumeAverage ∧ P.i.q.basis = Basis.volumeAverage ∧ P.f.q.basis = Basis.volumeAverage

/-- State of a run between steps. -/
structure Between (S : VarId → Prop) (P : Plasma α) (g : Rectilinear α) (t time : α) (q : State α) (m : Mgr α) : Prop where
  good : m.Good S
  laid : m.Laid
  grid : m.grid = g
  dt : m.dt = some t
  time : m.time = some time
  holds : P.Holds m 0 q

end QK

namespace QK.Spec
variable {α : Type} [Arith α]

/-- Names of the exported variables of the program and the physics: adiabatic index 5/3, speed of light, charge to mass ratios of
electrons and of ions of 25 times their mass, factors of the current `-q / m / ε₀`. -/
structure GemPlasma (P : Plasma α) : Prop where
  electrons : P.e.q = ⟨"electrons", ["rho", "px", "py", "pz", "e"], Basis.volumeAverage⟩
  ions : P.i.q = ⟨"ions", ["rho", "px", "py", "pz", "e"], Basis.volumeAverage⟩
  field : P.f.q = ⟨"field", ["Ex", "Ey", "Ez", "Bx", "By", "Bz"], Basis.volumeAverage⟩
  gamma : P.gamma = Arith.lit 5 / Arith.lit 3
  light : P.c = Arith.lit 299792458
  electron : P.comE = -Arith.lit (160217662 / 10 ^ 27) / Arith.lit (910938356 / 10 ^ 39)
  ion : P.comI = Arith.lit (160217662 / 10 ^ 27) / (Arith.lit 25 * Arith.lit (910938356 / 10 ^ 39))
  current : P.mults =
    [-(-Arith.lit (160217662 / 10 ^ 27)) / Arith.lit (910938356 / 10 ^ 39) / Arith.lit (885418782 / 10 ^ 20),
     -Arith.lit (160217662 / 10 ^ 27) / (Arith.lit 25 * Arith.lit (910938356 / 10 ^ 39)) / Arith.lit (885418782 / 10 ^ 20)]

end QK.Spec

namespace QK.Spec

/-- The total of component `j` of a field over the cells of the mesh `M` and `p` basis points (exact arithmetic). -/
noncomputable def fieldTotal (M : Box) (p : Nat) (u : Cell → ℝ) (j : Nat) : ℝ :=
  total (M ++ [(0, (p : Int))]) (fun x j => u (x ++ [(j : Int)])) j

/-- The file has a block of values of this component whose sum is `T`. -/
def BlockSum (file : List (Tok ℝ)) (name comp : String) (T : ℝ) : Prop :=
  ∃ vs : List ℝ, scalarBlock name comp vs <:+: file ∧ vs.sum = T

end QK.Spec

namespace QK.Spec
variable {α : Type} [Arith α]

/-- `r` is the rate of change of a gas `u` on its own, in the cells of `M` × points: flux differences. -/
def GasRate (M : Box) (p : Int) (dx : Nat → α) (gamma : α) (u r : Cell → α) : Prop :=
  ∀ x, InBox (M ++ [(0, p)]) x → ∀ j : Nat, j < 5 → r (x ++ [(j : Int)]) =
    fvUpdate (fun dim => fluxOf (Euler.hll gamma dim)) 5 (fun x j => u (x ++ [(j : Int)])) dx (List.range M.length) x j (Arith.lit 0)

/-- Likewise for an electromagnetic field in vacuum. -/
def LightRate (M : Box) (p : Int) (dx : Nat → α) (c : α) (u r : Cell → α) : Prop :=
  ∀ x, InBox (M ++ [(0, p)]) x → ∀ j : Nat, j < 6 → r (x ++ [(j : Int)]) =
    fvUpdate (fun dim => fluxOf (Maxwell.rusanov c dim)) 6 (fun x j => u (x ++ [(j : Int)])) dx (List.range (min M.length 3)) x j (Arith.lit 0)

/-- One stage of a program with one variable of `n` components, on fields (as `PlasmaStage`). -/
structure SoloStage (M : Box) (p : Int) (n : Nat) (ws : List Nat) (flip : Int → Prop) (ps : List Nat) (Rate : (Cell → α) → (Cell → α) → Prop)
    (t : α) (k : Nat) (start cur cur' rate next : Cell → α) : Prop where
  fill : Filled M [(0, p), (0, (n : Int))] ws flip ps cur cur'
  rates : Rate cur' rate
  next : ∀ x, next x = rkStage k t (start x) (cur' x) (rate x)

/-- One time step of such a program: three stages. -/
def SoloStep (M : Box) (p : Int) (n : Nat) (ws : List Nat) (flip : Int → Prop) (ps : List Nat) (Rate : (Cell → α) → (Cell → α) → Prop)
    (t : α) (q q' : Cell → α) : Prop :=
  ∃ q0 r0 q1 q1' r1 q2 q2' r2 : Cell → α, SoloStage M p n ws flip ps Rate t 0 q0 q q0 r0 q1 ∧
    SoloStage M p n ws flip ps Rate t 1 q0 q1 q1' r1 q2 ∧ SoloStage M p n ws flip ps Rate t 2 q0 q2 q2' r2 q'

/-- One time step for a gas between no-slip walls (directions `ws`), periodic in the directions `ps`. -/
def GasStep (grid : Rectilinear α) (p : Int) (ws ps : List Nat) (gamma t : α) : (Cell → α) → (Cell → α) → Prop :=
  SoloStep grid.rng.dims p 5 ws isMomentum ps (GasRate grid.rng.dims p grid.dxAt gamma) t

/-- One time step for an electromagnetic field in vacuum, periodic in the directions `ps`. -/
def LightStep (grid : Rectilinear α) (p : Int) (ps : List Nat) (c t : α) : (Cell → α) → (Cell → α) → Prop :=
  SoloStep grid.rng.dims p 6 [] isWallField ps (LightRate grid.rng.dims p grid.dxAt c) t


/-- The file shows the field `u` as the values of the variable `id`. -/
def FileShowsOne (M : Box) (id : VarId) (u : Cell → α) (file : List (Tok α)) : Prop :=
  ∃ o sp : α × α × α, file = vtkFile (points M 0, points M 1, points M 2) o sp (boxVolume M) (fieldBlocks M id u)


/-- How a program ends that writes the files `file 0 … file n`: normally, with all files, if all can be created; with an exception and
the files before it, if `k` is the first that cannot be created. -/
def RunEnds (canOpen : Nat → Bool) (n : Nat) (file : Nat → List (Tok α)) (r : SRes (Run α) Unit) : Prop :=
  ((∀ j ≤ n, canOpen j = true) → ∃ m', r = .ok () ⟨m', (List.range (n + 1)).map fun j => (j, file j)⟩) ∧
  ∀ k ≤ n, (∀ j < k, canOpen j = true) → canOpen k = false → ∃ msg m', r = .throw msg ⟨m', (List.range k).map fun j => (j, file j)⟩

end QK.Spec

namespace QK.Spec
variable {α : Type} [Arith α]

/-- Names and physics of the two-fluid Brio-Wu program: adiabatic index 2, speed of light 10, charges -1 and 1, masses 1/10 and 1,
`ε₀` = 10⁻⁶. -/
structure BrioPlasma (P : Plasma α) : Prop where
  electrons : P.e.q = ⟨"electrons", ["rho", "px", "py", "pz", "e"], Basis.volumeAverage⟩
  ions : P.i.q = ⟨"ions", ["rho", "px", "py", "pz", "e"], Basis.volumeAverage⟩
  field : P.f.q = ⟨"field", ["Ex", "Ey", "Ez", "Bx", "By", "Bz"], Basis.volumeAverage⟩
  gamma : P.gamma = Arith.lit 2
  light : P.c = Arith.lit 10
  electron : P.comE = Arith.lit (-1) / Arith.lit (1 / 10)
  ion : P.comI = Arith.lit 1 / Arith.lit 1
  current : P.mults = [-Arith.lit (-1) / Arith.lit (1 / 10) / Arith.lit (1 / 10 ^ 6), -Arith.lit 1 / Arith.lit 1 / Arith.lit (1 / 10 ^ 6)]

end QK.Spec
