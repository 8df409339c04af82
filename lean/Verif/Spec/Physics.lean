import Mathlib.Data.Fin.VecNotation
import Mathlib.Data.Real.Sqrt
/-
Textbook formulas, independent of the code (exact arithmetic).
-/
namespace QK.Spec

/-- A vector in space. -/
abbrev Vec := Fin 3 → ℝ

/-- Cross product. -/
def cross (a b : Vec) : Vec := ![a 1 * b 2 - a 2 * b 1, a 2 * b 0 - a 0 * b 2, a 0 * b 1 - a 1 * b 0]

/-- Dot product. -/
def vdot (a b : Vec) : ℝ := a 0 * b 0 + a 1 * b 1 + a 2 * b 2

/-- Unit vector in direction `d`. -/
def unit (d : Fin 3) : Vec := fun i => if i = d then 1 else 0

/-- Conserved variables of an ideal gas: mass density, momentum density, energy density. -/
structure Gas where
  rho : ℝ
  mom : Vec
  en : ℝ

namespace Gas

/-- The components in the order they are stored. -/
def comps (q : Gas) : List ℝ := [q.rho, q.mom 0, q.mom 1, q.mom 2, q.en]

/-- Pressure: `(γ - 1)` times the internal energy density. -/
noncomputable def pressure (gamma : ℝ) (q : Gas) : ℝ := (gamma - 1) * (q.en - vdot q.mom q.mom / (2 * q.rho))

/-- Velocity. -/
noncomputable def vel (q : Gas) (d : Fin 3) : ℝ := q.mom d / q.rho

/-- Speed of sound. -/
noncomputable def sound (gamma : ℝ) (q : Gas) : ℝ := Real.sqrt (gamma * q.pressure gamma / q.rho)

/-- Flux of the Euler equations in direction `d`: mass `ρ v_d`, momentum `ρ v v_d + P e_d`, energy
`(E + P) v_d`. -/
noncomputable def flux (gamma : ℝ) (d : Fin 3) (q : Gas) : Gas where
  rho := q.mom d
  mom := fun i => q.mom i * q.vel d + q.pressure gamma * unit d i
  en := (q.en + q.pressure gamma) * q.vel d

/-- Componentwise combination. -/
def lin (a : ℝ) (q : Gas) (b : ℝ) (r : Gas) : Gas where
  rho := a * q.rho + b * r.rho
  mom := fun i => a * q.mom i + b * r.mom i
  en := a * q.en + b * r.en

/-- The intermediate flux of the Harten-Lax-van Leer solver with wave speeds `sl`, `sr`. -/
noncomputable def hllFlux (gamma : ℝ) (d : Fin 3) (sl sr : ℝ) (l r : Gas) : Gas :=
  lin (1 / (sr - sl)) (lin 1 (lin sr (l.flux gamma d) (-sl) (r.flux gamma d)) (sl * sr) (lin 1 r (-1) l)) 0 l

end Gas

/-- Flux of Maxwell's equations `∂E/∂t = c² ∇×B`, `∂B/∂t = -∇×E` in direction `d`:
`-c² e_d × B` for `E`, `e_d × E` for `B`. -/
noncomputable def maxwellFlux (c : ℝ) (d : Fin 3) (E B : Vec) : List ℝ :=
  [-c ^ 2 * cross (unit d) B 0, -c ^ 2 * cross (unit d) B 1, -c ^ 2 * cross (unit d) B 2,
    cross (unit d) E 0, cross (unit d) E 1, cross (unit d) E 2]

end QK.Spec
