import Verif.Model.Solvers
/-
Model of the initial conditions (/repo/src/solver/shock_tube.cpp, radial_shock_tube.cpp, gaussian.cpp,
magnetic_pulse.cpp, electromagnetic_wave_1D.cpp, brio_wu_shock_tube.cpp, gem_challenge.cpp).

The array `double x[3]` of each function is declared before its loops. Each round calls `grid.xc` before it reads `x`,
which writes the first `num_dims` entries; the other entries are never written. So every round is modelled with a fresh array.
Reading an entry that was never written is undefined behaviour, as is writing beyond the third entry.
-/
namespace QK

namespace Init
variable {α : Type} [Arith α]

/-- `double x[3]; grid.xc(idx, x);` shock_tube.cpp:34, 51 and the like. -/
def coords (g : Rectilinear α) (idx : Indexer) : Res (List (Option α)) := g.xc idx.index [none, none, none]

/-- The value `x[i]`. shock_tube.cpp:51-53 and the like. -/
def coord (x : List (Option α)) (i : Int) : Res α := do
  match ← vget x i with
  | some v => return v
  | none => .ub "read of an uninitialised coordinate"

/-- `range r = data.range(); r.set(data.num_dims() - 1, l, u);`, or the same with `internal_range()` (`inner`). shock_tube.cpp:44-47 and the like. -/
def compRange (inner : Bool) (c : Chunk α) (l u : Int) : Res Range :=
  (if inner then c.internal else c.arr.rng).copy.set (c.arr.rng.numDims - 1) l u

/-- `for (idx = data.indexer(r); idx.exists(); idx.next()) round` on the elements of the chunk. shock_tube.cpp:49-60 and the like. -/
noncomputable def cellLoop (r : Range) (round : Indexer → List α → Res (List α)) (c : Chunk α) : Res (Chunk α) := do
  let d ← (c.arr.indexer r).forEach round c.arr.data
  return { c with arr := { c.arr with data := d } }

/-- Parameters of shock_tube.h:31-33. -/
structure ShockTube (α : Type) where
  rhoJump : α
  pJump : α
  gamma : α

/-- shock_tube.cpp:50-57, one round; `q = data.data(idx)`. -/
def shockRound (s : ShockTube α) (g : Rectilinear α) (idx : Indexer) (d : List α) : Res (List α) := do
  let x ← coords g idx
  let x0 ← coord x 0
  let rho0 : α := Arith.lit 1
  let e0 : α := Arith.lit 1 / (s.gamma - Arith.lit 1)
  let rho := if Arith.lt x0 (Arith.lit 0) then rho0 else rho0 * s.rhoJump
  let e := if Arith.lt x0 (Arith.lit 0) then e0 else e0 * s.pJump
  let d ← vset d idx.linear rho
  vset d (idx.linear + 4) e

/-- shock_tube.cpp:43-59, one chunk. -/
noncomputable def shockTube (s : ShockTube α) (g : Rectilinear α) (c : Chunk α) : Res (Chunk α) := do
  let c := { c with arr := c.arr.fill (Arith.lit 0) }
  let r ← compRange true c 0 1
  cellLoop r (shockRound s g) c

/-- gaussian.cpp:30, radial_shock_tube.h:26: `resize(3, 0.)`. -/
def resize3 (l : List α) : List α := l.take 3 ++ List.replicate (3 - l.length) (Arith.lit 0)

/-- Parameters of radial_shock_tube.h:34-38, after `setup` (19-27). -/
structure Radial (α : Type) where
  center : List α
  radius : α
  rhoJump : α
  pJump : α
  gamma : α

/-- radial_shock_tube.h:19-27 `setup`. -/
def Radial.setup (r rhoJump pJump gamma : α) (center : List α) : Radial α :=
  { center := resize3 center, radius := r, rhoJump := rhoJump, pJump := pJump, gamma := gamma }

/-- radial_shock_tube.cpp:55-57: the third term multiplies `x[2] - _center[2]` by `x[1] - _center[2]`. -/
def radialDist (c0 c1 c2 x0 x1 x2 : α) : α :=
  (x0 - c0) * (x0 - c0) + (x1 - c1) * (x1 - c1) + (x2 - c2) * (x1 - c2)

/-- radial_shock_tube.cpp:52-63, one round. -/
def radialRound (s : Radial α) (g : Rectilinear α) (idx : Indexer) (d : List α) : Res (List α) := do
  let x ← coords g idx
  let x0 ← coord x 0
  let c0 ← vget s.center 0
  let x1 ← coord x 1
  let c1 ← vget s.center 1
  let x2 ← coord x 2
  let c2 ← vget s.center 2
  let r2 := radialDist c0 c1 c2 x0 x1 x2
  let R2 := s.radius * s.radius
  let rho0 : α := Arith.lit 1
  let e0 : α := Arith.lit 1 / (s.gamma - Arith.lit 1)
  let rho := if Arith.lt r2 R2 then rho0 else rho0 * s.rhoJump
  let e := if Arith.lt r2 R2 then e0 else e0 * s.pJump
  let d ← vset d idx.linear rho
  vset d (idx.linear + 4) e

/-- radial_shock_tube.cpp:45-64, one chunk (ghost cells included). -/
noncomputable def radial (s : Radial α) (g : Rectilinear α) (c : Chunk α) : Res (Chunk α) := do
  let c := { c with arr := c.arr.fill (Arith.lit 0) }
  let r ← compRange false c 0 1
  cellLoop r (radialRound s g) c

/-- Parameters of gaussian.h, after `setup` (gaussian.cpp:25-33). -/
structure Gaussian (α : Type) where
  amplitude : α
  average : List α
  deviation : α

/-- gaussian.cpp:25-33 `setup`. -/
def Gaussian.setup (amplitude : α) (average : List α) (deviation : α) : Gaussian α :=
  { amplitude := amplitude, average := resize3 average, deviation := deviation }

/-- gaussian.cpp:52-56, the value from the coordinates. -/
def gaussianAt (amplitude deviation a0 a1 a2 x0 x1 x2 : α) : α :=
  let w0 := (x0 - a0) / deviation
  let w1 := (x1 - a1) / deviation
  let w2 := (x2 - a2) / deviation
  amplitude * Arith.exp (-w0 * w0 - w1 * w1 - w2 * w2)

/-- gaussian.cpp:49-57, one round. -/
def gaussianRound (s : Gaussian α) (g : Rectilinear α) (idx : Indexer) (d : List α) : Res (List α) := do
  let x ← coords g idx
  let x0 ← coord x 0
  let a0 ← vget s.average 0
  let x1 ← coord x 1
  let a1 ← vget s.average 1
  let x2 ← coord x 2
  let a2 ← vget s.average 2
  vset d idx.linear (gaussianAt s.amplitude s.deviation a0 a1 a2 x0 x1 x2)

/-- gaussian.cpp:48-57, one chunk: all elements, ghost cells and all components included. -/
noncomputable def gaussian (s : Gaussian α) (g : Rectilinear α) (c : Chunk α) : Res (Chunk α) :=
  cellLoop c.arr.rng (gaussianRound s g) c

/-- magnetic_pulse.cpp:36, 40, the value from the coordinates. -/
def pulseAt (amplitude deviation x0 x1 x2 : α) : α :=
  let r2 := Arith.lit (1 / 2) * (x0 * x0 + x1 * x1 + x2 * x2) / deviation
  amplitude * Arith.exp (-r2)

/-- magnetic_pulse.cpp:34-40, one round. -/
def pulseRound (amplitude deviation : α) (g : Rectilinear α) (idx : Indexer) (d : List α) : Res (List α) := do
  let x ← coords g idx
  let x0 ← coord x 0
  let x1 ← coord x 1
  let x2 ← coord x 2
  vset d idx.linear (pulseAt amplitude deviation x0 x1 x2)

/-- magnetic_pulse.cpp:27-42, one chunk. -/
noncomputable def pulse (amplitude deviation : α) (g : Rectilinear α) (c : Chunk α) : Res (Chunk α) := do
  let c := { c with arr := c.arr.fill (Arith.lit 0) }
  let r ← compRange false c 5 6
  cellLoop r (pulseRound amplitude deviation g) c

/-- Parameters of electromagnetic_wave_1D.h:41-44. -/
structure Wave (α : Type) where
  dim : Int
  c : α
  k : α
  Bx : α
  By : α
  Bz : α

/-- electromagnetic_wave_1D.cpp:33-91: the six components for the phase factor `s`; none if `_dim` is not 0, 1 or 2. -/
def waveState (w : Wave α) (s : α) : Option (List α) :=
  if w.dim = 0 then
    some [Arith.ofInt 0, w.c * w.Bz * s, -w.c * w.By * s, w.Bx, w.By * s, w.Bz * s]
  else if w.dim = 1 then
    some [-w.c * w.Bz * s, Arith.lit 0, w.c * w.Bx * s, w.Bx * s, w.By, w.Bz * s]
  else if w.dim = 2 then
    some [w.c * w.By * s, -w.c * w.Bx * s, Arith.lit 0, w.Bx * s, w.By * s, w.Bz]
  else none

/-- electromagnetic_wave_1D.cpp:38-48 (58-68, 78-88), one round. -/
def waveRound (w : Wave α) (g : Rectilinear α) (idx : Indexer) (d : List α) : Res (List α) := do
  let x ← coords g idx
  let xd ← coord x w.dim
  match waveState w (Arith.sin (w.k * xd)) with
  | some vs => vs.zipIdx.foldlM (fun d p => vset d (idx.linear + (p.2 : Int)) p.1) d
  | none => .ok d

/-- electromagnetic_wave_1D.cpp:27-91, one chunk. -/
noncomputable def wave (w : Wave α) (g : Rectilinear α) (c : Chunk α) : Res (Chunk α) := do
  let c := { c with arr := c.arr.fill (Arith.lit 0) }
  let r ← compRange false c 0 1
  if w.dim = 0 ∨ w.dim = 1 ∨ w.dim = 2 then cellLoop r (waveRound w g) c else return c

/-- Parameters of brio_wu_shock_tube.h:46-54. -/
structure BrioWu (α : Type) where
  gamma : α
  me : α
  mi : α
  nl : α
  nr : α
  Pl : α
  Pr : α
  Bx : α
  By : α

/-- Assignment `chunk[idx] = v` to one of several chunks. brio_wu_shock_tube.cpp:55-88. -/
def putAt (cs : List (Chunk α)) (p : Nat) (idx : Indexer) (v : α) : Res (List (Chunk α)) := do
  let c ← vget cs p
  let a ← c.arr.put idx v
  vset cs p { c with arr := a }

/-- `chunk.fill(v)` on one of several chunks. brio_wu_shock_tube.cpp:49-51. -/
def fillAt (cs : List (Chunk α)) (p : Nat) (v : α) : Res (List (Chunk α)) := do
  let c ← vget cs p
  vset cs p { c with arr := c.arr.fill v }

/-- brio_wu_shock_tube.cpp:57-62, one round; `e`, `i` are the positions of the electron and ion chunk in `cs`. -/
def brioRho (s : BrioWu α) (g : Rectilinear α) (e i : Nat) (idx : Indexer) (cs : List (Chunk α)) : Res (List (Chunk α)) := do
  let x ← coords g idx
  let x0 ← coord x 0
  let rhoE := s.me * (if Arith.lt x0 (Arith.lit 0) then s.nl else s.nr)
  let rhoI := rhoE * s.mi / s.me
  let cs ← putAt cs e idx rhoE
  putAt cs i idx rhoI

/-- `P_mult`, brio_wu_shock_tube.cpp:43. -/
def BrioWu.pMult (s : BrioWu α) : α := Arith.lit 1 / (s.gamma - Arith.lit 1)

/-- brio_wu_shock_tube.cpp:69-73, one round. -/
def brioEnergy (s : BrioWu α) (g : Rectilinear α) (e i : Nat) (idx : Indexer) (cs : List (Chunk α)) : Res (List (Chunk α)) := do
  let x ← coords g idx
  let x0 ← coord x 0
  let P := (if Arith.lt x0 (Arith.lit 0) then s.Pl else s.Pr) * s.pMult
  let cs ← putAt cs e idx P
  putAt cs i idx P

/-- brio_wu_shock_tube.cpp:80-83, one round: the field is multiplied by `P_mult` too. -/
def brioBy (s : BrioWu α) (g : Rectilinear α) (f : Nat) (idx : Indexer) (cs : List (Chunk α)) : Res (List (Chunk α)) := do
  let x ← coords g idx
  let x0 ← coord x 0
  let By := s.By * (if Arith.lt x0 (Arith.lit 0) then Arith.lit 1 else Arith.lit (-1)) * s.pMult
  putAt cs f idx By

/-- brio_wu_shock_tube.cpp:46-88, one round of the loop over the chunks. `cs` are the chunks without repetitions, `e`, `i`,
`f` the positions of `electrons`, `ions` and `field` in it (equal positions for the same chunk). -/
noncomputable def brioWu (s : BrioWu α) (g : Rectilinear α) (e i f : Nat) (cs : List (Chunk α)) : Res (List (Chunk α)) := do
  let cs ← fillAt cs e (Arith.lit 0)
  let cs ← fillAt cs i (Arith.lit 0)
  let cs ← fillAt cs f (Arith.lit 0)
  let ce ← vget cs e
  let nd : Int := ce.arr.rng.numDims - 1
  let rho ← ce.internal.copy.set nd 0 1
  let cs ← (ce.arr.indexer rho).forEach (brioRho s g e i) cs
  let en ← ce.internal.copy.set nd 4 5
  let cs ← (ce.arr.indexer en).forEach (brioEnergy s g e i) cs
  let cf ← vget cs f
  let by_ ← cf.internal.copy.set nd 4 5
  let cs ← (cf.arr.indexer by_).forEach (brioBy s g f) cs
  let bx ← cf.internal.copy.set nd 3 4
  let cf ← vget cs f
  let a ← cf.arr.fillSub bx s.Bx
  vset cs f { cf with arr := a }

/-- Parameters of gem_challenge.h:55-68 that are used. -/
structure Gem (α : Type) where
  lambda : α
  Lx : α
  n0 : α
  n1 : α
  gamma : α
  qe : α
  qi : α
  me : α
  mi : α
  Te : α
  Ti : α
  B0 : α

/-- gem_challenge.cpp:34-39. -/
def Gem.kx (s : Gem α) : α := Arith.lit (314159263 / 100000000) / s.Lx
/-- gem_challenge.cpp:34-39. -/
def Gem.ky (s : Gem α) : α := Arith.ofInt 2 * Arith.lit (314159263 / 100000000) / (Arith.ofInt 2 * s.Lx)
/-- gem_challenge.cpp:41-44: drift velocities and the perturbation amplitude. -/
def Gem.ue (s : Gem α) : α := Arith.ofInt 2 * s.Te / s.qe / s.lambda / s.B0
/-- gem_challenge.cpp:42. -/
def Gem.ui (s : Gem α) : α := Arith.ofInt 2 * s.Ti / s.qi / s.lambda / s.B0
/-- gem_challenge.cpp:44. -/
def Gem.B1 (s : Gem α) : α := Arith.lit (1 / 10) * s.B0

/-- gem_challenge.cpp:83-88: `sech2`, `uvar`, `n` at `x[0]`. -/
def Gem.sech2 (s : Gem α) (x0 : α) : α :=
  let r := Arith.lit 1 / Arith.cosh (x0 / s.lambda)
  r * r
/-- gem_challenge.cpp:86. -/
def Gem.uvar (s : Gem α) (x0 : α) : α := s.sech2 x0 / (s.sech2 x0 + s.n1 / s.n0)
/-- gem_challenge.cpp:88. -/
def Gem.n (s : Gem α) (x0 : α) : α := s.n0 * (s.sech2 x0 + s.n1 / s.n0)

/-- gem_challenge.cpp:89-99: density, momentum along z and energy of a fluid of mass `m`, temperature `T`, drift `v` (an
element read back is the one just written). -/
def Gem.fluid (s : Gem α) (m T v x0 : α) : α × α × α :=
  let rho := m * s.n x0
  let mom := rho * v * s.uvar x0
  (rho, mom, s.n x0 * T / (s.gamma - Arith.lit 1) + Arith.lit (1 / 2) * mom * mom / rho)

/-- gem_challenge.cpp:101-102. -/
def Gem.fieldX (s : Gem α) (x0 x1 : α) : α := s.B1 * s.ky * Arith.cos (s.kx * x0) * Arith.sin (s.ky * x1)
/-- gem_challenge.cpp:102. -/
def Gem.fieldY (s : Gem α) (x0 x1 : α) : α :=
  s.B0 * Arith.tanh (x0 / s.lambda) - s.B1 * s.kx * Arith.sin (s.kx * x0) * Arith.cos (s.ky * x1)

/-- gem_challenge.cpp:74-103, one round of the `while` loop, at the element positions of the three indexers. Here the array is
`double x[3] = {0}`. -/
def gemRound (s : Gem α) (g : Rectilinear α) (ei ii fi : Indexer) (d : List α × List α × List α) :
    Res (List α × List α × List α) := do
  let x ← g.xc ei.index [some (Arith.lit 0), some (Arith.lit 0), some (Arith.lit 0)]
  let x0 ← coord x 0
  let x1 ← coord x 1
  let E := s.fluid s.me s.Te s.ue x0
  let I := s.fluid s.mi s.Ti s.ui x0
  let e ← vset d.1 ei.linear E.1
  let i ← vset d.2.1 ii.linear I.1
  let e ← vset e (ei.linear + 3) E.2.1
  let i ← vset i (ii.linear + 3) I.2.1
  let e ← vset e (ei.linear + 4) E.2.2
  let i ← vset i (ii.linear + 4) I.2.2
  let f ← vset d.2.2 (fi.linear + 3) (s.fieldX x0 x1)
  let f ← vset f (fi.linear + 4) (s.fieldY x0 x1)
  return (e, i, f)

/-- gem_challenge.cpp:73-110: `while (e_idx.exists() and i_idx.exists() and f_idx.exists()) { …; ++e_idx; ++i_idx; ++f_idx; }` -/
noncomputable def forThree {σ : Type} (i j k : Indexer) (body : Indexer → Indexer → Indexer → σ → Res σ) (s : σ) : Res σ :=
  iter (fun p : Indexer × Indexer × Indexer × σ =>
    if p.1.ex && p.2.1.ex && p.2.2.1.ex then do
      let s' ← body p.1 p.2.1 p.2.2.1 p.2.2.2
      let i' ← p.1.next
      let j' ← p.2.1.next
      let k' ← p.2.2.1.next
      return .inl (i', j', k', s')
    else .ok (.inr p.2.2.2)) (i, j, k, s)

/-- gem_challenge.cpp:53-110, one round of the loop over the chunks. -/
noncomputable def gem (s : Gem α) (g : Rectilinear α) (e i f : Chunk α) : Res (Chunk α × Chunk α × Chunk α) := do
  let e := { e with arr := e.arr.fill (Arith.lit 0) }
  let i := { i with arr := i.arr.fill (Arith.lit 0) }
  let f := { f with arr := f.arr.fill (Arith.lit 0) }
  let er ← compRange false e 0 1
  let ir ← compRange false i 0 1
  let fr ← compRange false f 0 1
  let d ← forThree (e.arr.indexer er) (i.arr.indexer ir) (f.arr.indexer fr) (gemRound s g)
    (e.arr.data, i.arr.data, f.arr.data)
  return ({ e with arr := { e.arr with data := d.1 } }, { i with arr := { i.arr with data := d.2.1 } },
    { f with arr := { f.arr with data := d.2.2 } })

end Init

namespace Solve
open SM
variable {α : Type} [Arith α]

/-- The loop over output variables of an initial condition, with the grid of the manager. shock_tube.cpp:39-42, gaussian.cpp:44-47, magnetic_pulse.cpp:23-26, electromagnetic_wave_1D.cpp:23-26, radial_shock_tube.cpp:41-44. -/
noncomputable def initial (f : Rectilinear α → Chunk α → Res (Chunk α)) (outs : List VarId) : SM (Mgr α) Unit := do
  let m ← get
  eachOutput (f m.grid) outs

/-- shock_tube.cpp:29-63 `shock_tube::solve`. -/
noncomputable def shockTube (s : Init.ShockTube α) (outs : List VarId) : SM (Mgr α) Unit := initial (Init.shockTube s) outs

/-- radial_shock_tube.cpp:30-68 `radial_shock_tube::solve`. -/
noncomputable def radial (s : Init.Radial α) (outs : List VarId) : SM (Mgr α) Unit := initial (Init.radial s) outs

/-- gaussian.cpp:35-63 `gaussian::solve`. -/
noncomputable def gaussian (s : Init.Gaussian α) (outs : List VarId) : SM (Mgr α) Unit := initial (Init.gaussian s) outs

/-- magnetic_pulse.cpp:15-48 `magnetic_pulse::solve`. -/
noncomputable def pulse (amplitude deviation : α) (outs : List VarId) : SM (Mgr α) Unit :=
  initial (Init.pulse amplitude deviation) outs

/-- electromagnetic_wave_1D.cpp:15-96 `electromagnetic_wave_1D::solve`. -/
noncomputable def wave (w : Init.Wave α) (outs : List VarId) : SM (Mgr α) Unit := initial (Init.wave w) outs

/-- brio_wu_shock_tube.cpp:45-90, the loop over the chunks of the electrons. The three variables may be the same. -/
noncomputable def brioLoop (s : Init.BrioWu α) (ae ai af : Nat) : SM (Mgr α) Unit :=
  forChunks ae (fun idx m => do
    let ce ← chunkAt m ae idx
    let ci ← chunkAt m ai idx
    let cf ← chunkAt m af idx
    let i := if ai = ae then 0 else 1
    let f := if af = ae then 0 else if af = ai then 1 else 2
    let cs ← Init.brioWu s m.grid 0 i f [ce, ci, cf]
    let m ← setChunk m ae idx (← vget cs 0)
    let m ← setChunk m ai idx (← vget cs i)
    setChunk m af idx (← vget cs f))

/-- brio_wu_shock_tube.cpp:29-92 `brio_wu_shock_tube::solve`. -/
noncomputable def brioWu (s : Init.BrioWu α) (outs : List VarId) : SM (Mgr α) Unit :=
  match outs with
  | [oe, oi, of] => do
    let ae ← outputVar oe
    let ai ← outputVar oi
    let af ← outputVar of
    brioLoop s ae ai af
  | _ => raise "qk::solver::brio_wu_shock_tube::solve : Must have three output variables (electrons, ions, field)."

/-- gem_challenge.cpp:52-111, the loop over the chunks of the electrons. -/
noncomputable def gemLoop (s : Init.Gem α) (ae ai af : Nat) : SM (Mgr α) Unit :=
  forChunks ae (fun idx m => do
    aliased (ae == ai || ae == af || ai == af)
    let ce ← chunkAt m ae idx
    let ci ← chunkAt m ai idx
    let cf ← chunkAt m af idx
    let r ← Init.gem s m.grid ce ci cf
    let m ← setChunk m ae idx r.1
    let m ← setChunk m ai idx r.2.1
    setChunk m af idx r.2.2)

/-- gem_challenge.cpp:26-113 `gem_challenge::solve`. The number of output variables is not checked. -/
noncomputable def gem (s : Init.Gem α) (outs : List VarId) : SM (Mgr α) Unit := do
  let oe ← lift (vget outs 0)
  let ae ← outputVar oe
  let oi ← lift (vget outs 1)
  let ai ← outputVar oi
  let of ← lift (vget outs 2)
  let af ← outputVar of
  gemLoop s ae ai af

end Solve
end QK
