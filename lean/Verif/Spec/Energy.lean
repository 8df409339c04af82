import Verif.Spec.Program
/- Vocabulary for the energy of fields and of plasmas (exact arithmetic). -/
namespace QK.Spec

/-- The weights of the components of the electromagnetic field in its energy, in units of `ε₀`: `E² + c² B²`. -/
noncomputable def emWeight (c : ℝ) (j : Nat) : ℝ := if j < 3 then 1 else c ^ 2

/-- Energy of the field, summed over the cells of the mesh `M` (`p` points each), in units of `ε₀` times the volume of a cell. -/
noncomputable def fieldEnergy (M : Box) (p : Nat) (c : ℝ) (u : Cell → ℝ) : ℝ :=
  ((cells (M ++ [(0, (p : Int))])).map fun x => ((List.range 6).map fun j => emWeight c j * u (x ++ [(j : Int)]) ^ 2).sum).sum / 2

/-- Change of this energy per time, if the field is `u` and changes at the rate `r`. -/
noncomputable def fieldPower (M : Box) (p : Nat) (c : ℝ) (u r : Cell → ℝ) : ℝ :=
  ((cells (M ++ [(0, (p : Int))])).map fun x => ((List.range 6).map fun j => emWeight c j * (u (x ++ [(j : Int)]) * r (x ++ [(j : Int)]))).sum).sum

/-- The differences to both neighbours in direction `d`, summed over all cells and components (those of the magnetic field times the speed of light). -/
noncomputable def jumps (M : Box) (p : Nat) (c : ℝ) (d : Nat) (u : Cell → ℝ) : ℝ :=
  ((cells (M ++ [(0, (p : Int))])).map fun x => ((List.range 6).map fun j : Nat => (if j < 3 then 1 else |c|) *
    (|u (x ++ [(j : Int)]) - u (moveBy x d (-1) ++ [(j : Int)])| + |u (moveBy x d 1 ++ [(j : Int)]) - u (x ++ [(j : Int)])|)).sum).sum

/-- By how much the energy of the field may grow in a step of length `t` on cells of widths `dx`: the effect of the limiter's `1e-12`, and the square of the rates. -/
noncomputable def energyGrowth (M : Box) (c : ℝ) (dx : Nat → ℝ) (t : ℝ) : ℝ :=
  t * ((List.range (min M.length 3)).map fun d => 9 / (4 * 10 ^ 12) * (|c| * (1 + |c|) / dx d)).sum +
    t ^ 2 * ((List.range (min M.length 3)).map fun d => 81 * (min M.length 3 : Nat) * (c ^ 2 / dx d ^ 2)).sum

end QK.Spec
