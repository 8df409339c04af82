import Verif.Spec.Client
/-
Vocabulary for C127: two programs that do the same with variables of other names, on managers whose variables lie elsewhere in memory.
-/
namespace QK
variable {α : Type}

/-- `ρ` gives the variables `ids` other names: different ones get different names, and they keep their number of values. -/
structure Renaming (S S' : VarId → Prop) (ρ : VarId → VarId) (ids : List VarId) : Prop where
  known : ∀ id ∈ ids, S id
  known' : ∀ id ∈ ids, S' (ρ id)
  inj : ∀ x ∈ ids, ∀ y ∈ ids, ρ x = ρ y → x = y
  points : ∀ id ∈ ids, (ρ id).basis.points = id.basis.points
  comps : ∀ id ∈ ids, (ρ id).comps.length = id.comps.length

/-- Two managers on the same mesh at the same time; the second one stores for `ρ id` what the first stores for `id`, for the variables `ids`. Both may have further variables, and the variables may have
been created in any order. -/
structure Mgr.Twin (S S' : VarId → Prop) (ρ : VarId → VarId) (ids : List VarId) (m m' : Mgr α) : Prop where
  good : m.Good S
  good' : m'.Good S'
  grid : m'.grid = m.grid
  dt : m'.dt = m.dt
  time : m'.time = m.time
  contents : ∀ id ∈ ids, m'.contents (ρ id) = m.contents id

/-- Two runs end alike: both return, or both throw the same exception, or both have the same undefined behaviour, or both do not end; the managers left behind are related. -/
def SameEnd (T : Mgr α → Mgr α → Prop) : SRes (Mgr α) Unit → SRes (Mgr α) Unit → Prop
  | .ok _ m, .ok _ m' => T m m'
  | .throw w m, .throw w' m' => w = w' ∧ T m m'
  | .ub w, .ub w' => w = w'
  | .diverge, .diverge => True
  | _, _ => False

namespace Call

/-- The variables that occur in a call. -/
def uses : Call α → List VarId
  | output id => [id]
  | setDt _ | setTime _ => []
  | fill outs _ | swap outs | periodic _ outs | copyOut _ outs | noSlip _ outs | freeSlip _ outs | conductingWall _ outs => outs
  | euler _ ins outs | maxwell _ ins outs | lorentz _ ins outs | current _ ins outs => ins ++ outs
  | rk1 ins outs _ | ssprk3 ins outs _ => ins ++ outs
  | own _ reads writes => reads ++ writes

/-- The call with other variables. -/
def rename (ρ : VarId → VarId) : Call α → Call α
  | output id => output (ρ id)
  | setDt t => setDt t
  | setTime t => setTime t
  | fill outs value => fill (outs.map ρ) value
  | swap outs => swap (outs.map ρ)
  | periodic dims outs => periodic dims (outs.map ρ)
  | copyOut dims outs => copyOut dims (outs.map ρ)
  | noSlip dims outs => noSlip dims (outs.map ρ)
  | freeSlip dims outs => freeSlip dims (outs.map ρ)
  | conductingWall dims outs => conductingWall dims (outs.map ρ)
  | euler gamma ins outs => euler gamma (ins.map ρ) (outs.map ρ)
  | maxwell c ins outs => maxwell c (ins.map ρ) (outs.map ρ)
  | lorentz com ins outs => lorentz com (ins.map ρ) (outs.map ρ)
  | current mults ins outs => current mults (ins.map ρ) (outs.map ρ)
  | rk1 ins outs tag => rk1 (ins.map ρ) (outs.map ρ) tag
  | ssprk3 ins outs tag => ssprk3 (ins.map ρ) (outs.map ρ) tag
  | own f reads writes => own f reads writes

/-- A call of the library. -/
def isLibrary : Call α → Bool
  | own _ _ _ => false
  | _ => true

/-- A call that sets the time or the step length of the manager. -/
def setsClock : Call α → Bool
  | setDt _ | setTime _ => true
  | _ => false

end Call

namespace Client

/-- The variables that occur in a program. -/
def uses : Client α → List VarId
  | call c => c.uses
  | skip => []
  | seq p q => p.uses ++ q.uses
  | loop _ p => p.uses
  | branch _ p q => p.uses ++ q.uses

/-- The program has only calls of the library, in sequence and in loops. -/
def plain : Client α → Bool
  | call c => c.isLibrary
  | skip => true
  | seq p q => p.plain && q.plain
  | loop _ p => p.plain
  | branch _ _ _ => false

def setsClock : Client α → Bool
  | call c => c.setsClock
  | skip => false
  | seq p q => p.setsClock || q.setsClock
  | loop _ p => p.setsClock
  | branch _ p q => p.setsClock || q.setsClock

/-- The program with other variables (own solvers and conditions stay as they are). -/
def rename (ρ : VarId → VarId) : Client α → Client α
  | call c => call (c.rename ρ)
  | skip => skip
  | seq p q => seq (p.rename ρ) (q.rename ρ)
  | loop n p => loop n (p.rename ρ)
  | branch b p q => branch b (p.rename ρ) (q.rename ρ)

end Client

/-- `p'` does to the variables `ρ id` what `p` does to the variables `id`: the calls of the library are renamed, own solvers and the conditions of branches cannot tell related managers apart. -/
inductive Client.Renamed (T : Mgr α → Mgr α → Prop) (ρ : VarId → VarId) (ids : List VarId) : Client α → Client α → Prop
  | call {c : Call α} (library : c.isLibrary = true) (uses : ∀ id ∈ c.uses, id ∈ ids) : Renamed T ρ ids (.call c) (.call (c.rename ρ))
  | own {f f' : SM (Mgr α) Unit} {r r' w w' : List VarId} (same : ∀ m m', T m m' → SameEnd T (f m) (f' m')) : Renamed T ρ ids (.call (.own f r w)) (.call (.own f' r' w'))
  | skip : Renamed T ρ ids .skip .skip
  | seq {p p' q q' : Client α} (first : Renamed T ρ ids p p') (second : Renamed T ρ ids q q') : Renamed T ρ ids (.seq p q) (.seq p' q')
  | loop {n : Nat} {p p' : Client α} (body : Renamed T ρ ids p p') : Renamed T ρ ids (.loop n p) (.loop n p')
  | branch {b b' : Mgr α → Bool} {p p' q q' : Client α} (same : ∀ m m', T m m' → b' m' = b m) (yes : Renamed T ρ ids p p') (no : Renamed T ρ ids q q') :
      Renamed T ρ ids (.branch b p q) (.branch b' p' q')

end QK
