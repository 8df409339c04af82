import Verif.Spec.Program
import Verif.Model.ArithReal
/-
Specification vocabulary for floating-point arithmetic: what C110 assumes of `double`, and the sizes its bounds are stated in.
-/
namespace QK.Spec
variable {α : Type} [Arith α]

/-- The arithmetic of IEEE 754 in round-to-nearest as far as it is used. `fin a`: `a` is neither infinite nor NaN; `val a`: its value; `rd`: rounding to the
nearest number with unlimited exponents above; `big`: the largest finite number; `u`: the unit roundoff; `e`: the largest error of results that underflow
(doubles: `u` = 2⁻⁵³, `e` = 2⁻¹⁰⁷⁵). Every operation is rounded (no contraction to fused operations, no excess precision). -/
structure Floats (val : α → ℝ) (fin : α → Prop) (rd : ℝ → ℝ) (big u e : ℝ) : Prop where
  unit : 0 ≤ u ∧ u ≤ 1
  tiny : 0 ≤ e
  odd : ∀ x, rd (-x) = -rd x
  err : ∀ x, |rd x - x| ≤ u * |x| + e
  number : ∀ {a}, fin a → rd (val a) = val a ∧ |val a| ≤ big
  /-- sums of numbers do not underflow -/
  sum_err : ∀ {a b}, fin a → fin b → |rd (val a + val b) - (val a + val b)| ≤ u * |val a + val b|
  add : ∀ {a b : α}, fin (a + b) ↔ fin a ∧ fin b ∧ |rd (val a + val b)| ≤ big
  add_val : ∀ {a b : α}, fin (a + b) → val (a + b) = rd (val a + val b)
  sub : ∀ {a b : α}, fin (a - b) ↔ fin a ∧ fin b ∧ |rd (val a - val b)| ≤ big
  sub_val : ∀ {a b : α}, fin (a - b) → val (a - b) = rd (val a - val b)
  mul : ∀ {a b : α}, fin (a * b) ↔ fin a ∧ fin b ∧ |rd (val a * val b)| ≤ big
  mul_val : ∀ {a b : α}, fin (a * b) → val (a * b) = rd (val a * val b)
  /-- a finite quotient: of finite numbers, or of a finite number and an infinity -/
  div : ∀ {a b : α}, fin (a / b) → fin a ∧ (fin b ∧ val b ≠ 0 ∧ val (a / b) = rd (val a / val b) ∨ ¬ fin b ∧ val (a / b) = 0)
  neg : ∀ {a : α}, fin (-a) ↔ fin a
  neg_val : ∀ {a : α}, fin a → val (-a) = -val a
  sqrt : ∀ {a : α}, fin (Arith.sqrt a) → fin a ∧ 0 ≤ val a ∧ val (Arith.sqrt a) = rd (Real.sqrt (val a))
  lt : ∀ {a b : α}, fin a → fin b → (Arith.lt a b = true ↔ val a < val b)
  le : ∀ {a b : α}, fin a → fin b → (Arith.le a b = true ↔ val a ≤ val b)
  lit : ∀ q : ℚ, |rd (q : ℝ)| ≤ big → fin (Arith.lit q : α) ∧ val (Arith.lit q : α) = rd (q : ℝ)
  /-- these literals are numbers of the format -/
  lits : ∀ q ∈ [(0 : ℚ), 1, 1 / 4, 1 / 2, 3 / 4, 2, 3], rd (q : ℝ) = (q : ℝ)
  three : 3 ≤ big

/-- What flows through the faces of the cell `x` per unit of time, as computed: the sizes of the fluxes of component `j` over the cell width, summed over both faces in all
directions. -/
noncomputable def exchange (val : α → ℝ) (φ : Nat → List α → List α → List α) (n : Nat) (dx : Nat → α) (dims : List Nat) (u : Cell → α) (x : Cell) (j : Nat) : ℝ :=
  (dims.map fun d => |val ((faceFlux (φ d) n (fun x j => u (x ++ [(j : Int)])) d x).getD j (Arith.lit 0) / dx d)| +
    |val ((faceFlux (φ d) n (fun x j => u (x ++ [(j : Int)])) d (moveBy x d 1)).getD j (Arith.lit 0) / dx d)|).sum

/-- In the cells of `M` × points component `j` of `u` is at most `Q` in size, and what flows through the faces of a cell in a time step `t` is at most `W`. -/
def Sized (val : α → ℝ) (φ : Nat → List α → List α → List α) (n : Nat) (dx : Nat → α) (dims : List Nat) (M : Box) (p : Nat) (t : α) (Q W : ℝ) (u : Cell → α) (j : Nat) :
    Prop :=
  ∀ x, InBox (M ++ [(0, (p : Int))]) x → |val (u (x ++ [(j : Int)]))| ≤ Q ∧ |val t| * exchange val φ n dx dims u x j ≤ W

/-- Component `j` is finite in all cells. -/
def Finite (fin : α → Prop) (M : Box) (p : Nat) (u : Cell → α) (j : Nat) : Prop := ∀ x, InBox (M ++ [(0, (p : Int))]) x → fin (u (x ++ [(j : Int)]))

/-- The bound on the rounding error of one value in one stage, in `D` directions. -/
noncomputable def roundOff (u e : ℝ) (D : Nat) (Q W : ℝ) : ℝ := ((1 + u) ^ (2 * D + 5) - 1) * (Q + W) + 3 * (1 + u) ^ (2 * D + 5) * e

/-- In the three stages of the step from `q` to `q'` the field with its ghost cells filled satisfies `Z`. -/
def SoloAll (M : Box) (p : Int) (n : Nat) (ws : List Nat) (flip : Int → Prop) (ps : List Nat) (Rate : (Cell → α) → (Cell → α) → Prop)
    (t : α) (Z : (Cell → α) → Prop) (q q' : Cell → α) : Prop :=
  ∀ q0 r0 q1 q1' r1 q2 q2' r2 : Cell → α, SoloStage M p n ws flip ps Rate t 0 q0 q q0 r0 q1 → SoloStage M p n ws flip ps Rate t 1 q0 q1 q1' r1 q2 →
    SoloStage M p n ws flip ps Rate t 2 q0 q2 q2' r2 q' → Z q0 ∧ Z q1' ∧ Z q2'

/-- Likewise for the plasma programs. -/
def PlasmaAll (P : Plasma α) (grid : Rectilinear α) (p : Int) (ws ps : List Nat) (t : α) (Z : State α → Prop) (q q' : State α) : Prop :=
  ∀ q0 r0 q1 q1' r1 q2 q2' r2 : State α, PlasmaStage P grid p ws ps t 0 q0 q q0 r0 q1 → PlasmaStage P grid p ws ps t 1 q0 q1 q1' r1 q2 →
    PlasmaStage P grid p ws ps t 2 q0 q2 q2' r2 q' → Z q0 ∧ Z q1' ∧ Z q2'

/-- Sizes of component `j` of a gas and of a field. -/
def GasSized (val : α → ℝ) (grid : Rectilinear α) (p : Nat) (gamma t : α) (Q W : ℝ) (j : Nat) (u : Cell → α) : Prop :=
  Sized val (fun dim => fluxOf (Euler.hll gamma dim)) 5 grid.dxAt (List.range grid.rng.dims.length) grid.rng.dims p t Q W u j
def LightSized (val : α → ℝ) (grid : Rectilinear α) (p : Nat) (c t : α) (Q W : ℝ) (j : Nat) (u : Cell → α) : Prop :=
  Sized val (fun dim => fluxOf (Maxwell.rusanov c dim)) 6 grid.dxAt (List.range (min grid.rng.dims.length 3)) grid.rng.dims p t Q W u j

/-- Sizes of a plasma: densities of the fluids and magnetic field. -/
def PlasmaSized (val : α → ℝ) (P : Plasma α) (g : Rectilinear α) (p : Nat) (t : α) (Q W : ℝ) (w : State α) : Prop :=
  GasSized val g p P.gamma t Q W 0 w.e ∧ GasSized val g p P.gamma t Q W 0 w.i ∧ ∀ j, 3 ≤ j → j < 6 → LightSized val g p P.c t Q W j w.f

/-- The file has a block of values of this component; the sum of the values is `T`. -/
def BlockSumOf (val : α → ℝ) (file : List (Tok α)) (name comp : String) (T : ℝ) : Prop :=
  ∃ vs : List α, scalarBlock name comp vs <:+: file ∧ (vs.map val).sum = T

end QK.Spec
