import Verif.Props.Symmetry
import Verif.Proofs.Axes
/-
C125: the scheme treats the axes of the mesh alike.
-/
namespace QK.Props
open QK Spec

section
variable {p : Int} {π : Nat → Nat} {g h : Rectilinear ℝ}

/-- As `chain_rel`, for two kinds of step. -/
theorem chain_rel2 {σ : Type} {Step Step' : σ → σ → Prop} {R : σ → σ → Prop} (h : ∀ {a b a' b'}, Step a a' → Step' b b' → R a b → R a' b') {s t : Nat → σ} :
    ∀ {k : Nat}, (∀ j < k, Step (s j) (s (j + 1))) → (∀ j < k, Step' (t j) (t (j + 1))) → R (s 0) (t 0) → ∀ j ≤ k, R (s j) (t j) := by
  intro k hs ht h0 j
  induction j with
  | zero => intro _; exact h0
  | succ j ih => intro hj; exact h (hs j (by omega)) (ht j (by omega)) (ih (by omega))

/-- **C125** The gas scheme treats the axes alike, in exact arithmetic. Give the axes of a mesh of at most three dimensions other names — the same cells, widths, walls and periodic
directions, the momenta renamed with the axes — and the whole run is the same run under the new names. -/
theorem C125_gas (Y : Renamed π g.rng.dims h.rng.dims) (hdx : ∀ d < g.rng.dims.length, h.dxAt (π d) = g.dxAt d) {ws ps : List Nat} (C : Covered g.rng.dims ws ps) {gamma t : ℝ} {k : Nat}
    {u v : Nat → Cell → ℝ} (hu : ∀ j < k, GasStep g p ws ps gamma t (u j) (u (j + 1))) (hv : ∀ j < k, GasStep h p (ws.map π) (ps.map π) gamma t (v j) (v (j + 1)))
    (h0 : RenamedOn π (gasComp π) g.rng.dims h.rng.dims p 5 (u 0) (v 0)) : ∀ j ≤ k, RenamedOn π (gasComp π) g.rng.dims h.rng.dims p 5 (u j) (v j) :=
  chain_rel2 (R := RenamedOn π (gasComp π) g.rng.dims h.rng.dims p 5)
    (fun H K R => soloStep_turned Y (gasComp_lt Y) (fun _ _ j hj => gasComp_momentum Y j hj) C.wide C.all (fun a => gasRate_turned Y hdx a) H K R) hu hv h0

/-- **C125** The scheme for the electromagnetic field treats the three axes alike, up to their orientation: on a periodic three-dimensional mesh, naming x, y, z instead y, z, x
gives the same run under the new names, in exact arithmetic. -/
theorem C125_light (Y : Renamed rot g.rng.dims h.rng.dims) (h3 : g.rng.dims.length = 3) (hdx : ∀ d < g.rng.dims.length, h.dxAt (rot d) = g.dxAt d) {ps : List Nat} (C : Covered g.rng.dims [] ps)
    {c t : ℝ} {k : Nat} {u v : Nat → Cell → ℝ} (hu : ∀ j < k, LightStep g p ps c t (u j) (u (j + 1))) (hv : ∀ j < k, LightStep h p (ps.map rot) c t (v j) (v (j + 1)))
    (h0 : RenamedOn rot (fieldComp rot) g.rng.dims h.rng.dims p 6 (u 0) (v 0)) : ∀ j ≤ k, RenamedOn rot (fieldComp rot) g.rng.dims h.rng.dims p 6 (u j) (v j) :=
  chain_rel2 (R := RenamedOn rot (fieldComp rot) g.rng.dims h.rng.dims p 6)
    (fun H K R => soloStep_turned (ws := []) Y fieldComp_lt (fun _ h => absurd h (by simp)) C.wide C.all (fun a => lightRate_turned Y h3 hdx a) H K R) hu hv h0

/-- **C125** Likewise for the plasma programs: fluxes, Lorentz force and current. -/
theorem C125_plasma (Y : Renamed rot g.rng.dims h.rng.dims) (h3 : g.rng.dims.length = 3) (hdx : ∀ d < g.rng.dims.length, h.dxAt (rot d) = g.dxAt d) {ps : List Nat} (C : Covered g.rng.dims [] ps)
    {P : Plasma ℝ} (hm : P.mults.length = 2) {t : ℝ} {k : Nat} {u v : Nat → State ℝ} (hu : ∀ j < k, PlasmaStep P g p [] ps t (u j) (u (j + 1)))
    (hv : ∀ j < k, PlasmaStep P h p [] (ps.map rot) t (v j) (v (j + 1))) (h0 : RenamedState rot g.rng.dims h.rng.dims p (u 0) (v 0)) :
    ∀ j ≤ k, RenamedState rot g.rng.dims h.rng.dims p (u j) (v j) :=
  chain_rel2 (R := RenamedState rot g.rng.dims h.rng.dims p)
    (fun H K R => plasmaStep_turned Y h3 hdx C.wide (fun d hd => (C.all d hd).resolve_left (by simp)) hm H K R) hu hv h0

/-- **C125** So a symmetric start stays symmetric: if the mesh looks the same under the new names and so does the gas at the start, then so does the gas after any number of steps. -/
theorem C125_symmetric (Y : Renamed π g.rng.dims g.rng.dims) (hdx : ∀ d < g.rng.dims.length, g.dxAt (π d) = g.dxAt d) {ws ps : List Nat} (C : Covered g.rng.dims ws ps)
    (hws : ∀ d ∈ ws, π d ∈ ws) (hps : ∀ d ∈ ps, π d ∈ ps) {gamma t : ℝ} {k : Nat} {u : Nat → Cell → ℝ} (hu : ∀ j < k, GasStep g p ws ps gamma t (u j) (u (j + 1)))
    (h0 : RenamedOn π (gasComp π) g.rng.dims g.rng.dims p 5 (u 0) (u 0)) : ∀ j ≤ k, RenamedOn π (gasComp π) g.rng.dims g.rng.dims p 5 (u j) (u j) := by
  have sub : ∀ {ws : List Nat}, (∀ d ∈ ws, π d ∈ ws) → ∀ d ∈ ws.map π, d ∈ ws := by
    intro ws h d hd
    obtain ⟨e, he, rfl⟩ := List.mem_map.1 hd
    exact h e he
  have fill : ∀ {u u' : Cell → ℝ}, Filled g.rng.dims [(0, p), (0, ((5 : Nat) : Int))] ws isMomentum ps u u' → Filled g.rng.dims [(0, p), (0, ((5 : Nat) : Int))] (ws.map π) isMomentum (ps.map π) u u' :=
    fun F => ⟨F.inside, fun i hi => F.wall_flip i (sub hws i hi), fun i hi => F.wall_keep i (sub hws i hi), fun i hi => F.wrap i (sub hps i hi)⟩
  refine C125_gas Y hdx C hu (fun j hj => ?_) h0
  obtain ⟨q0, r0, q1, q1', r1, q2, q2', r2, H0, H1, H2⟩ := hu j hj
  exact ⟨q0, r0, q1, q1', r1, q2, q2', r2, ⟨fill H0.fill, H0.rates, H0.next⟩, ⟨fill H1.fill, H1.rates, H1.next⟩, ⟨fill H2.fill, H2.rates, H2.next⟩⟩

/-- Exchange of the axes x and y. -/
def exchange : Nat → Nat
  | 0 => 1
  | 1 => 0
  | d => d

theorem exchange_renamed {a b : Int × Int} : Renamed exchange [a, b] [b, a] := by
  refine ⟨rfl, by simp, ?_, ?_, ?_, ?_⟩
  · intro d hd
    match d, hd with
    | 0, _ => simp [exchange]
    | 1, _ => simp [exchange]
  · intro d hd
    match d, hd with
    | d + 2, _ => rfl
  · intro d e h
    match d, e with
    | 0, 0 => rfl
    | 1, 1 => rfl
    | 0, 1 => cases h
    | 1, 0 => cases h
    | 0, e + 2 => simp [exchange] at h
    | 1, e + 2 => simp [exchange] at h
    | d + 2, 0 => simp [exchange] at h
    | d + 2, 1 => simp [exchange] at h
    | d + 2, e + 2 => exact h
  · intro d hd
    match d, hd with
    | 0, _ => rfl
    | 1, _ => rfl

theorem rot_renamed {a b c : Int × Int} : Renamed rot [a, b, c] [c, a, b] := by
  refine ⟨rfl, by simp, ?_, ?_, ?_, ?_⟩
  · intro d hd
    match d, hd with
    | 0, _ => simp [rot]
    | 1, _ => simp [rot]
    | 2, _ => simp [rot]
  · intro d hd
    match d, hd with
    | d + 3, _ => rfl
  · intro d e h
    match d, e with
    | 0, 0 => rfl
    | 1, 1 => rfl
    | 2, 2 => rfl
    | 0, 1 => cases h
    | 0, 2 => cases h
    | 1, 0 => cases h
    | 1, 2 => cases h
    | 2, 0 => cases h
    | 2, 1 => cases h
    | 0, e + 3 => simp [rot] at h
    | 1, e + 3 => simp [rot] at h
    | 2, e + 3 => simp [rot] at h
    | d + 3, 0 => simp [rot] at h
    | d + 3, 1 => simp [rot] at h
    | d + 3, 2 => simp [rot] at h
    | d + 3, e + 3 => exact h
  · intro d hd
    match d, hd with
    | 0, _ => rfl
    | 1, _ => rfl
    | 2, _ => rfl

/-- **C125** The shock tube along x with walls in x, and the shock tube along y with walls in y, on the mesh with its sides exchanged, are the same run with x and y exchanged: the
fluxes of the second direction are those of the first. -/
theorem C125_tube {nx ny : Int} (hd : g.rng.dims = [(0, nx), (0, ny)]) (hd' : h.rng.dims = [(0, ny), (0, nx)]) (hnx : 2 ≤ nx) (hny : 2 ≤ ny)
    (h0 : h.dxAt 1 = g.dxAt 0) (h1 : h.dxAt 0 = g.dxAt 1) {gamma t : ℝ} {k : Nat} {u v : Nat → Cell → ℝ} (hu : ∀ j < k, GasStep g 1 [0] [1] gamma t (u j) (u (j + 1)))
    (hv : ∀ j < k, GasStep h 1 [1] [0] gamma t (v j) (v (j + 1)))
    (hs : ∀ x y, 0 ≤ x → x < nx → 0 ≤ y → y < ny → ∀ j : Nat, j < 5 → v 0 [y, x, 0, (gasComp exchange j : Nat)] = u 0 [x, y, 0, (j : Nat)]) :
    ∀ i ≤ k, ∀ x y, 0 ≤ x → x < nx → 0 ≤ y → y < ny → ∀ j : Nat, j < 5 → v i [y, x, 0, (gasComp exchange j : Nat)] = u i [x, y, 0, (j : Nat)] := by
  have Y : Renamed exchange g.rng.dims h.rng.dims := by rw [hd, hd']; exact exchange_renamed
  have key := C125_gas (p := 1) Y (fun d hd' => by
    rw [hd] at hd'
    match d, hd' with
    | 0, _ => exact h0
    | 1, _ => exact h1) (by rw [hd]; exact covered_two hnx hny) hu hv ?_
  · intro i hi x y hx0 hx1 hy0 hy1 j hj
    refine key i hi [x, y, 0] [y, x, 0] ⟨?_, ?_, ?_, ?_⟩ j hj
    · rw [hd]; exact .cons ⟨hx0, hx1⟩ (.cons ⟨hy0, hy1⟩ (.cons ⟨by decide, by decide⟩ .nil))
    · rw [hd']; exact .cons ⟨hy0, hy1⟩ (.cons ⟨hx0, hx1⟩ (.cons ⟨by decide, by decide⟩ .nil))
    · intro d hd''
      rw [hd] at hd''
      match d, hd'' with
      | 0, _ => rfl
      | 1, _ => rfl
    · rw [hd]; rfl
  · intro x y R j hj
    have hl := R.left
    have hr := R.right
    rw [hd] at hl
    rw [hd'] at hr
    cases hl with
    | cons a1 hl => cases hl with
      | cons a2 hl => cases hl with
        | cons a3 hl =>
          cases hl
          cases hr with
          | cons b1 hr => cases hr with
            | cons b2 hr => cases hr with
              | cons b3 hr =>
                cases hr
                have e0 := R.coords 0 (by rw [hd]; simp)
                have e1 := R.coords 1 (by rw [hd]; simp)
                simp [exchange] at e0 e1
                subst e0 e1
                obtain ⟨a3, a3'⟩ := a3
                obtain ⟨b3, b3'⟩ := b3
                have z1 : ∀ z : Int, 0 ≤ z → z < 1 → z = 0 := fun z _ _ => by omega
                rw [z1 _ a3 a3', z1 _ b3 b3']
                exact hs _ _ a1.1 a1.2 a2.1 a2.2 j hj

end

/-! ### Examples -/

/-- A box of 2 × 3 × 4 cells of widths 1, 2, 3, and the same box with its axes rotated. -/
noncomputable def exBox : Rectilinear ℝ := ⟨Range.setup [(0, 2), (0, 3), (0, 4)], [0, 0, 0], [2, 6, 12], [1, 2, 3]⟩
noncomputable def exBoxRot : Rectilinear ℝ := ⟨Range.setup [(0, 4), (0, 2), (0, 3)], [0, 0, 0], [12, 2, 6], [3, 1, 2]⟩

/-- The field `u` on the rotated box, with components renamed by the inverse `τ` of the renaming. -/
def rotated (τ : Int → Int) (u : Cell → ℝ) : Cell → ℝ := fun c => u [c.getD 1 0, c.getD 2 0, c.getD 0 0, c.getD 3 0, τ (c.getD 4 0)]

theorem rotated_renamed {σ : Nat → Nat} {τ : Int → Int} {n : Nat} (hτ : ∀ j < n, τ (σ j : Nat) = (j : Nat)) (u : Cell → ℝ) :
    RenamedOn rot σ exBox.rng.dims exBoxRot.rng.dims 1 n u (rotated τ u) := by
  intro x y R j hj
  have hl : InBox [(0, 2), (0, 3), (0, 4), (0, 1)] x := R.left
  have hr : InBox [(0, 4), (0, 2), (0, 3), (0, 1)] y := R.right
  have e0 : y.getD 1 0 = x.getD 0 0 := R.coords 0 (by decide)
  have e1 : y.getD 2 0 = x.getD 1 0 := R.coords 1 (by decide)
  have e2 : y.getD 0 0 = x.getD 2 0 := R.coords 2 (by decide)
  have e3 : y.getD 3 0 = x.getD 3 0 := R.point
  match x, y, hl.length_eq, hr.length_eq with
  | [a, b, c, d], [a', b', c', d'], _, _ =>
    simp at e0 e1 e2 e3
    subst e0 e1 e2 e3
    show u [_, _, _, _, τ (σ j : Nat)] = u [_, _, _, _, _]
    rw [hτ j hj]
    rfl

/-- Inverse renamings of components under the rotation. -/
def gasBack (k : Int) : Int := if k = 1 then 3 else if k = 2 then 1 else if k = 3 then 2 else k
def fieldBack (k : Int) : Int := if k = 0 then 2 else if k = 1 then 0 else if k = 2 then 1 else if k = 3 then 5 else if k = 4 then 3 else if k = 5 then 4 else k

/-- From every state of a plasma in the box there are runs of any length in the box and in the rotated box, and they agree for ever. -/
example (P : Plasma ℝ) (hm : P.mults.length = 2) (t : ℝ) (q : State ℝ) : ∃ u v : Nat → State ℝ, u 0 = q ∧
    (∀ j, PlasmaStep P exBox 1 [] [0, 1, 2] t (u j) (u (j + 1))) ∧ (∀ j, PlasmaStep P exBoxRot 1 [] [1, 2, 0] t (v j) (v (j + 1))) ∧
    ∀ j, RenamedState rot exBox.rng.dims exBoxRot.rng.dims 1 (u j) (v j) := by
  obtain ⟨u, hu0, hu⟩ := (C90_exists (g := exBox) (p := 1) (ws := []) (ps := [0, 1, 2]) (by simp) (by decide) (by simp) t).2.2 P q
  obtain ⟨v, hv0, hv⟩ := (C90_exists (g := exBoxRot) (p := 1) (ws := []) (ps := [1, 2, 0]) (by simp) (by decide) (by simp) t).2.2 P
    ⟨rotated gasBack q.e, rotated gasBack q.i, rotated fieldBack q.f⟩
  refine ⟨u, v, hu0, hu, hv, fun j => ?_⟩
  refine C125_plasma (g := exBox) (h := exBoxRot) (p := 1) rot_renamed rfl ?_ (covered_three (by decide) (by decide) (by decide)) hm (k := j) (fun i _ => hu i) (fun i _ => hv i) ?_ j le_rfl
  · intro d hd
    match d, hd with
    | 0, _ => rfl
    | 1, _ => rfl
    | 2, _ => rfl
  · rw [hu0, hv0]
    exact ⟨rotated_renamed (by decide) _, rotated_renamed (by decide) _, rotated_renamed (by decide) _⟩

/-- Likewise for light. -/
example (c t : ℝ) (q : Cell → ℝ) : ∃ u v : Nat → Cell → ℝ, u 0 = q ∧ (∀ j, LightStep exBox 1 [0, 1, 2] c t (u j) (u (j + 1))) ∧ (∀ j, LightStep exBoxRot 1 [1, 2, 0] c t (v j) (v (j + 1))) ∧
    ∀ j, RenamedOn rot (fieldComp rot) exBox.rng.dims exBoxRot.rng.dims 1 6 (u j) (v j) := by
  obtain ⟨u, hu0, hu⟩ := (C90_exists (g := exBox) (p := 1) (ws := []) (ps := [0, 1, 2]) (by simp) (by decide) (by simp) t).2.1 c q
  obtain ⟨v, hv0, hv⟩ := (C90_exists (g := exBoxRot) (p := 1) (ws := []) (ps := [1, 2, 0]) (by simp) (by decide) (by simp) t).2.1 c (rotated fieldBack q)
  refine ⟨u, v, hu0, hu, hv, fun j => ?_⟩
  refine C125_light (g := exBox) (h := exBoxRot) (p := 1) rot_renamed rfl ?_ (covered_three (by decide) (by decide) (by decide)) (k := j) (fun i _ => hu i) (fun i _ => hv i) ?_ j le_rfl
  · intro d hd
    match d, hd with
    | 0, _ => rfl
    | 1, _ => rfl
    | 2, _ => rfl
  · rw [hu0, hv0]
    exact rotated_renamed (by decide) _

/-- A tube of 5 × 2 cells, and the same tube along y. -/
noncomputable def exTubeX : Rectilinear ℝ := ⟨Range.setup [(0, 5), (0, 2)], [0, 0], [5, 4], [1, 2]⟩
noncomputable def exTubeY : Rectilinear ℝ := ⟨Range.setup [(0, 2), (0, 5)], [0, 0], [4, 5], [2, 1]⟩

/-- A shock tube along x: gas of density and energy 1, one eighth of it from the third cell on; and the same along y. -/
noncomputable def shockX : Cell → ℝ := fun c => if c.getD 3 0 = 0 ∨ c.getD 3 0 = 4 then (if c.getD 0 0 < 2 then 1 else 1 / 8) else 0
noncomputable def shockY : Cell → ℝ := fun c => if c.getD 3 0 = 0 ∨ c.getD 3 0 = 4 then (if c.getD 1 0 < 2 then 1 else 1 / 8) else 0

example (gamma t : ℝ) : ∃ u v : Nat → Cell → ℝ, u 0 = shockX ∧ v 0 = shockY ∧ (∀ j, GasStep exTubeX 1 [0] [1] gamma t (u j) (u (j + 1))) ∧ (∀ j, GasStep exTubeY 1 [1] [0] gamma t (v j) (v (j + 1))) ∧
    ∀ i x y, 0 ≤ x → x < 5 → 0 ≤ y → y < 2 → ∀ j : Nat, j < 5 → v i [y, x, 0, (gasComp exchange j : Nat)] = u i [x, y, 0, (j : Nat)] := by
  obtain ⟨u, hu0, hu⟩ := (C90_exists (g := exTubeX) (p := 1) (ws := [0]) (ps := [1]) (by decide) (by decide) (by decide) t).1 gamma shockX
  obtain ⟨v, hv0, hv⟩ := (C90_exists (g := exTubeY) (p := 1) (ws := [1]) (ps := [0]) (by decide) (by decide) (by decide) t).1 gamma shockY
  refine ⟨u, v, hu0, hv0, hu, hv, fun i => ?_⟩
  refine C125_tube (g := exTubeX) (h := exTubeY) rfl rfl (by decide) (by decide) rfl rfl (k := i) (fun j _ => hu j) (fun j _ => hv j) ?_ i le_rfl
  intro x y _ _ _ _ j hj
  rw [hu0, hv0]
  have : (((gasComp exchange j : Nat) : Int) = 0 ∨ ((gasComp exchange j : Nat) : Int) = 4) ↔ ((j : Int) = 0 ∨ (j : Int) = 4) := by interval_cases j <;> decide
  simp only [shockX, shockY, List.getD_cons_zero, List.getD_cons_succ, this]

/-- A square of 3 × 3 cells with walls all around. -/
noncomputable def exSquare : Rectilinear ℝ := ⟨Range.setup [(0, 3), (0, 3)], [0, 0], [3, 3], [1, 1]⟩

/-- A square box of gas, denser and hotter in the corner (0, 0), moving along the diagonal: it is the same under exchange of the axes. -/
def cornerGas : Cell → ℝ := fun c =>
  if c.getD 3 0 = 3 then 0 else if c.getD 0 0 = 0 ∧ c.getD 1 0 = 0 then 8 else 1

/-- It stays the same under exchange of the axes for ever. -/
example (gamma t : ℝ) : ∃ u : Nat → Cell → ℝ, u 0 = cornerGas ∧ (∀ j, GasStep exSquare 1 [0, 1] [] gamma t (u j) (u (j + 1))) ∧
    ∀ j, RenamedOn exchange (gasComp exchange) exSquare.rng.dims exSquare.rng.dims 1 5 (u j) (u j) := by
  obtain ⟨u, hu0, hu⟩ := (C90_exists (g := exSquare) (p := 1) (ws := [0, 1]) (ps := []) (by decide) (by simp) (by simp) t).1 gamma cornerGas
  refine ⟨u, hu0, hu, fun j => ?_⟩
  refine C125_symmetric (g := exSquare) (p := 1) exchange_renamed ?_ ⟨?_, ?_⟩ (by decide) (by simp) (k := j) (fun i _ => hu i) ?_ j le_rfl
  · intro d hd
    match d, hd with
    | 0, _ => rfl
    | 1, _ => rfl
  · decide
  · decide
  · rw [hu0]
    intro x y R j hj
    have hl : InBox [(0, 3), (0, 3), (0, 1)] x := R.left
    have hr : InBox [(0, 3), (0, 3), (0, 1)] y := R.right
    have e0 : y.getD 1 0 = x.getD 0 0 := R.coords 0 (by decide)
    have e1 : y.getD 0 0 = x.getD 1 0 := R.coords 1 (by decide)
    match x, y, hl.length_eq, hr.length_eq with
    | [a, b, c], [a', b', c'], _, _ =>
      simp at e0 e1
      subst e0 e1
      have : ((gasComp exchange j : Nat) : Int) = 3 ↔ (j : Int) = 3 := by interval_cases j <;> decide
      simp only [cornerGas, List.cons_append, List.nil_append, List.getD_cons_zero, List.getD_cons_succ, this, and_comm]

end QK.Props
