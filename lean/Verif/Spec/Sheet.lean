import Verif.Spec.Initial
/-
The plasma of the current sheet programs: what C88 compares them with.
-/
namespace QK.Spec

/-! Initial states of the plasma programs (exact arithmetic; SI units for the current sheet). -/

/-- Elementary charge, mass of the electron, dielectric and magnetic constant, velocity of light. -/
noncomputable def chargeE : ℝ := 1.60217662e-19
noncomputable def massE : ℝ := 9.10938356e-31
noncomputable def epsilon0 : ℝ := 8.85418782e-12
noncomputable def muZero : ℝ := 1.25663706e-6
noncomputable def lightC : ℝ := 299792458

/-- The plasma of the current sheet: ions of 25 electron masses, density such that the inertial length of the ions is 1, electrons with a sound velocity
of c/10 (gamma 5/3), ions five times as hot, and the magnetic pressure outside the sheet equal to the gas pressure in its middle. -/
structure SheetConstants (n0 Te Ti B0 : ℝ) : Prop where
  density : lightC ^ 2 = n0 * chargeE ^ 2 / (epsilon0 * (25 * massE))
  sound : 5 / 3 * Te / massE = (lightC / 10) ^ 2
  hot : Ti = 5 * Te
  balance : B0 ^ 2 / (2 * muZero) = n0 * Te + n0 * Ti
  sense : 0 < B0

/-- The state of a cell of the sheet at `x`, `y`, by components; `L` is the width of the domain. -/
structure SheetAt (n0 Te Ti B0 L x y : ℝ) (e i f : Nat → ℝ) : Prop where
  rho_e : e 0 = massE * sheetN n0 (n0 / 5) (1 / 2) x
  rho_i : i 0 = 25 * massE * sheetN n0 (n0 / 5) (1 / 2) x
  mom_e : e 1 = 0 ∧ e 2 = 0 ∧ -chargeE / massE * e 3 = sheetJ n0 (-chargeE) Te B0 (1 / 2) x
  mom_i : i 1 = 0 ∧ i 2 = 0 ∧ chargeE / (25 * massE) * i 3 = sheetJ n0 chargeE Ti B0 (1 / 2) x
  en_e : (5 / 3 - 1) * (e 4 - e 3 ^ 2 / e 0 / 2) = sheetN n0 (n0 / 5) (1 / 2) x * Te
  en_i : (5 / 3 - 1) * (i 4 - i 3 ^ 2 / i 0 / 2) = sheetN n0 (n0 / 5) (1 / 2) x * Ti
  electric : f 0 = 0 ∧ f 1 = 0 ∧ f 2 = 0
  bx : f 3 = sheetX (B0 / 10) (3.14159263 / L) (3.14159263 / L) x y
  bY : f 4 = sheetY B0 (1 / 2) (B0 / 10) (3.14159263 / L) (3.14159263 / L) x y
  bz : f 5 = 0

end QK.Spec
