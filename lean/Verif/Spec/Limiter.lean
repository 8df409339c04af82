import Verif.Spec.Physics
/- Vocabulary for the properties of the reconstruction and of the Maxwell flux (exact arithmetic). -/
namespace QK.Spec

/-- The part of a vector perpendicular to direction `d`. -/
def transverse (d : Fin 3) (v : Vec) : Vec := fun i => if i = d then 0 else v i

/-- Energy flux (Poynting vector) in direction `d`, in the units of the code: `c² (E × B)_d`. -/
def poynting (c : ℝ) (d : Fin 3) (E B : Vec) : ℝ := c ^ 2 * cross E B d

/-- A state of the electromagnetic field in the order it is stored. -/
def emComps (E B : Vec) : List ℝ := [E 0, E 1, E 2, B 0, B 1, B 2]

/-- The flux that averages both sides and damps jumps of the transverse fields with the speed of light. -/
noncomputable def dampedFlux (c : ℝ) (d : Fin 3) (El Bl Er Br : Vec) : Vec × Vec :=
  (fun i => (-c ^ 2 * cross (unit d) Bl i + -c ^ 2 * cross (unit d) Br i) / 2 - |c| / 2 * (transverse d Er i - transverse d El i),
   fun i => (cross (unit d) El i + cross (unit d) Er i) / 2 - |c| / 2 * (transverse d Br i - transverse d Bl i))

end QK.Spec
