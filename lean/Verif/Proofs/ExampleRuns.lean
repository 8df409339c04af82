import Verif.Proofs.Solo
import Verif.Props.Walls
/- Helper lemmas for the properties of the example programs. -/
namespace QK
open Spec Solve Props

section
variable {α : Type} [Arith α] {S : VarId → Prop} {m : Mgr α}

/-- The field stored for a variable that was set. -/
theorem setTo_field {id : VarId} {B : Box} {f : Cell → Nat → α} (h : m.SetTo id B f) {u : Cell → α} (hu : m.Stores id u) {x : Cell} (hx : InBox B x) {j : Nat}
    (hj : j < id.comps.length) (hin : InBox (m.arrayBox id) (x ++ [(j : Int)])) : u (x ++ [(j : Int)]) = f x j := by
  obtain ⟨c, hc, v, _⟩ := h
  obtain ⟨c', hc', v'⟩ := hu
  rw [hc] at hc'; cases hc'
  have := (v' _ hin).symm.trans (v x hx j hj)
  exact Option.some.inj this

theorem setTo_exists {id : VarId} {B : Box} {f : Cell → Nat → α} (h : m.SetTo id B f) : m.contents id ≠ none := by
  obtain ⟨c, hc, _⟩ := h; rw [hc]; simp

/-- Cells of the mesh lie in the array. -/
theorem mesh_in_array {id : VarId} {p : Int} (hp : id.basis.points = p) {x : Cell} (hx : InBox (m.grid.rng.dims ++ [(0, p)]) x) {j : Nat} (hj : j < id.comps.length) :
    InBox (m.arrayBox id) (x ++ [(j : Int)]) := by
  unfold Mgr.arrayBox
  refine inBox_interior (g := 2) (by decide) ?_
  rw [show m.grid.rng.dims ++ [((0 : Int), id.basis.points), (0, (id.comps.length : Int))] =
    (m.grid.rng.dims ++ [((0 : Int), p)]) ++ [(0, (id.comps.length : Int))] by simp [hp]]
  exact (inBox_snoc hx.length_eq).2 ⟨hx, by omega, by omega⟩

theorem one_dim_grid {nx : Int} {s w : α} (hnx : 2 ≤ nx) : ∃ g, (do
      let r ← Range.ofLengths 1 [nx]
      Rectilinear.make r [s] [w]) = .ok g ∧ RunGrid g [0] [] ∧ g.rng.dims = [(0, nx)] := by
  obtain ⟨g, hg⟩ := Rectilinear.make_ok (range := Range.setup [(0, nx)]) (s := [s]) (w := [w]) (by simp) (by simp)
  have hd : g.rng.dims = [(0, nx)] := by rw [(Rectilinear.make_fields hg).1]; rfl
  refine ⟨g, ?_, ⟨⟨_, _, _, hg⟩, by rw [hd]; simp, ⟨(Rectilinear.make_sized hg).widths, by rw [hd]; simp, ?_, by simp, by simp⟩⟩, hd⟩
  · have : Range.ofLengths 1 [nx] = .ok (Range.setup [(0, nx)]) := rfl
    rw [this, Res.ok_bind, hg]
  · intro i hi'; simp at hi'; subst hi'; rw [hd]; simp [hi, lo]; omega

theorem gem_points : ∀ id, gemIds id → 0 ≤ id.basis.points := by
  intro id h
  simp only [gemIds, Five.ids, List.mem_append, List.mem_cons, List.not_mem_nil, or_false] at h
  rcases h with (rfl | rfl | rfl | rfl | rfl) | (rfl | rfl | rfl | rfl | rfl) | (rfl | rfl | rfl | rfl | rfl) <;> decide

/-- A plasma program after its initial condition, as `RunEnds`. -/
theorem plasma_run {P : Plasma α} {ws ps : List Nat} (R : RunReady S P ws ps) {ic : SM (Mgr α) Unit} {m0 : Mgr α} (hic : ic m = .ok () m0) (h : m0.Good S) (hL : m0.Laid)
    {g : Rectilinear α} (hgr : m0.grid = g) (hg : RunGrid g ws ps) {q0 : State α} (h0 : P.Holds m0 0 q0) (canOpen : Nat → Bool) (t : α) (numFrames numSteps : Nat) :
    (∃ (s : Nat → State α) (file : Nat → List (Tok α)), s 0 = q0 ∧
      (∀ j < numFrames * numSteps, PlasmaStep P g 1 ws ps t (s j) (s (j + 1))) ∧ (∀ j ≤ numFrames, FileShows g.rng.dims P (s (j * numSteps)) (file j)) ∧
      RunEnds canOpen numFrames file (Run.main ic canOpen [P.e.q, P.i.q, P.f.q] (P.step true) t numFrames numSteps ⟨m, []⟩)) ∧
    (canOpen 0 = true → 0 < numFrames → 0 < numSteps →
      ∃ w, Run.main ic canOpen [P.e.q, P.i.q, P.f.q] (P.step false) t numFrames numSteps ⟨m, []⟩ = .ub w) := by
  subst hgr
  refine ⟨?_, fun hc hf hs => C81_misaligned R hic h hL hg h0 hc t hf hs⟩
  obtain ⟨s, file, a1, a2, a3, a4, a5⟩ := C81_program R hic h hL hg h0 canOpen t numFrames numSteps
  exact ⟨s, file, a1, a2, a3, fun hc => by obtain ⟨m', h, _⟩ := a4 hc; exact ⟨m', h⟩, a5⟩

end

/-! ### Totals -/

section
variable {M : Box} {p n : Nat} {ws ps : List Nat} {flip : Int → Prop} {Rate : (Cell → ℝ) → (Cell → ℝ) → Prop} {t : ℝ} {j : Nat}

/-- A program with one variable keeps the total of component `j` if the rates of that component add up to zero. -/
theorem soloStep_total (hj : j < n) (hr : ∀ {u u' r : Cell → ℝ}, Filled M [(0, (p : Int)), (0, (n : Int))] ws flip ps u u' → Rate u' r → fieldTotal M p r j = 0)
    {q q' : Cell → ℝ} (H : SoloStep M p n ws flip ps Rate t q q') : fieldTotal M p q' j = fieldTotal M p q j := by
  obtain ⟨q0, r0, q1, q1', r1, q2, q2', r2, H0, H1, H2⟩ := H
  have st : ∀ {k : Nat} {start cur cur' rate next : Cell → ℝ} {T : ℝ}, SoloStage M p n ws flip ps Rate t k start cur cur' rate next → fieldTotal M p start j = T →
      fieldTotal M p cur j = T → fieldTotal M p next j = T := by
    intro k start cur cur' rate next T H h1 h2
    exact fieldTotal_rk H.next h1 (by rw [filled_total H.fill hj, h2]) (hr H.fill H.rates)
  have s0 := filled_total H0.fill hj
  exact st H2 s0 (st H1 s0 (st H0 s0 rfl))

theorem gasRate_total (hp : 1 ≤ p) (hM : Pos M) (h3 : M.length ≤ 3) {u u' r : Cell → ℝ}
    (hws : ∀ i ∈ ws, 2 ≤ hi M i - lo M i) (hps : ∀ i ∈ ps, 2 ≤ hi M i - lo M i) (hall : ∀ d < M.length, d ∈ ws ∨ d ∈ ps)
    (F : Filled M [(0, (p : Int)), (0, 5)] ws isMomentum ps u u') {gamma : ℝ} {dx : Nat → ℝ} (hr : GasRate M p dx gamma u' r) (hj : j = 0 ∨ j = 4) :
    fieldTotal M p r j = 0 := by
  have e : fieldTotal M p r j = total (M ++ [(0, (p : Int))])
      (fun x j => fvUpdate (fun dim => fluxOf (Euler.hll gamma dim)) 5 (fun x j => u' (x ++ [(j : Int)])) dx (List.range M.length) x j 0) j := by
    unfold fieldTotal total
    congr 1
    refine List.map_congr_left fun x hx => ?_
    dsimp only
    rw [hr x (mem_cells.1 hx) j (by omega), real_lit]
    norm_num
  rw [e, fvUpdate_closed (pos_points hM hp) (by intro d hd; simp at hd ⊢; omega) _ _ _ (fun _ _ => 0), fieldTotal_zero]
  intro dim hdim
  exact fluid_closed h3 hws hps hall F gamma (by simpa using hdim) hj

theorem lightRate_total (hp : 1 ≤ p) (hM : Pos M) {u u' r : Cell → ℝ} (hps : ∀ i ∈ ps, 2 ≤ hi M i - lo M i) (hall : ∀ d < M.length, d ∈ ps)
    (F : Filled M [(0, (p : Int)), (0, 6)] [] isWallField ps u u') {c : ℝ} {dx : Nat → ℝ} (hr : LightRate M p dx c u' r) (hj : j < 6) :
    fieldTotal M p r j = 0 := by
  have e : fieldTotal M p r j = total (M ++ [(0, (p : Int))])
      (fun x j => fvUpdate (fun dim => fluxOf (Maxwell.rusanov c dim)) 6 (fun x j => u' (x ++ [(j : Int)])) dx (List.range (min M.length 3)) x j 0) j := by
    unfold fieldTotal total
    congr 1
    refine List.map_congr_left fun x hx => ?_
    dsimp only
    rw [hr x (mem_cells.1 hx) j hj, real_lit]
    norm_num
  rw [e, fvUpdate_closed (pos_points hM hp) (by intro d hd; simp at hd ⊢; omega) _ _ _ (fun _ _ => 0), fieldTotal_zero]
  intro dim hdim
  have hd : dim < M.length := by simp at hdim; omega
  exact closed_periodic (n := 6) F (hall dim hd) hd (hps dim (hall dim hd)) _ j

theorem blockSum_one {id : VarId} {u : Cell → ℝ} {file : List (Tok ℝ)} (h : FileShowsOne M id u file) {k : Nat} (hk : k < id.comps.length) :
    BlockSum file id.name id.comps[k] (fieldTotal M 1 u k) := by
  obtain ⟨o, sp, rfl⟩ := h
  obtain ⟨vs, h1, h2⟩ := fieldBlocks_sum (M := M) (u := u) hk
  exact ⟨vs, (infix_flatten h1).trans (List.suffix_append _ _).isInfix, h2⟩

end

theorem chain_const {σ β : Type} {s : Nat → σ} {Step : σ → σ → Prop} {f : σ → β} (hf : ∀ {a b}, Step a b → f b = f a) :
    ∀ {n : Nat}, (∀ j < n, Step (s j) (s (j + 1))) → ∀ j ≤ n, f (s j) = f (s 0) := by
  intro n hs j
  induction j with
  | zero => intro _; rfl
  | succ j ih => intro hj; exact (hf (hs j (by omega))).trans (ih (by omega))

/-- The sums in the files of a plasma program in one dimension between walls, or with the other directions periodic. -/
theorem plasma_sums {P : Plasma ℝ} {g : Rectilinear ℝ} {ps : List Nat} {t : ℝ} (hpos : Pos g.rng.dims) (h3 : g.rng.dims.length ≤ 3)
    (hws : 2 ≤ hi g.rng.dims 0 - lo g.rng.dims 0) (hps : ∀ i ∈ ps, 2 ≤ hi g.rng.dims i - lo g.rng.dims i)
    (hall : ∀ d < g.rng.dims.length, d = 0 ∨ d ∈ ps)
    (hne : P.e.q = ⟨"electrons", ["rho", "px", "py", "pz", "e"], Basis.volumeAverage⟩) (hni : P.i.q = ⟨"ions", ["rho", "px", "py", "pz", "e"], Basis.volumeAverage⟩)
    (hnf : P.f.q = ⟨"field", ["Ex", "Ey", "Ez", "Bx", "By", "Bz"], Basis.volumeAverage⟩)
    {numFrames numSteps : Nat} {s : Nat → State ℝ} {file : Nat → List (Tok ℝ)} (hs : ∀ j < numFrames * numSteps, PlasmaStep P g 1 [0] ps t (s j) (s (j + 1)))
    (hf : ∀ j ≤ numFrames, FileShows g.rng.dims P (s (j * numSteps)) (file j)) :
    ∃ Te Ti Tx Ty Tz : ℝ, ∀ j ≤ numFrames, BlockSum (file j) "electrons" "rho" Te ∧ BlockSum (file j) "ions" "rho" Ti ∧ BlockSum (file j) "field" "Bx" Tx ∧
      BlockSum (file j) "field" "By" Ty ∧ BlockSum (file j) "field" "Bz" Tz := by
  have st : ∀ {a b : State ℝ}, PlasmaStep P g 1 [0] ps t a b → _ := fun {a b} H => C83_step (p := 1) (le_refl _) hpos h3 (by simpa using hws) hps
    (by intro d hd; simpa using hall d hd) H
  refine ⟨fieldTotal g.rng.dims 1 (s 0).e 0, fieldTotal g.rng.dims 1 (s 0).i 0, fieldTotal g.rng.dims 1 (s 0).f 3, fieldTotal g.rng.dims 1 (s 0).f 4,
    fieldTotal g.rng.dims 1 (s 0).f 5, fun j hj => ?_⟩
  have B := blockSum_of (hf j hj)
  rw [hne, hni, hnf] at B
  obtain ⟨Be, Bi, Bf⟩ := B
  have le : j * numSteps ≤ numFrames * numSteps := Nat.mul_le_mul_right _ hj
  have ce := chain_const (f := fun q : State ℝ => fieldTotal g.rng.dims 1 q.e 0) (fun H => (st H).1) hs _ le
  have ci := chain_const (f := fun q : State ℝ => fieldTotal g.rng.dims 1 q.i 0) (fun H => (st H).2.1) hs _ le
  have cf := fun k (h : 3 ≤ k) (h' : k < 6) => chain_const (f := fun q : State ℝ => fieldTotal g.rng.dims 1 q.f k) (fun H => (st H).2.2 (by simp) k h h') hs _ le
  rw [← ce, ← ci, ← cf 3 (by decide) (by decide), ← cf 4 (by decide) (by decide), ← cf 5 (by decide) (by decide)]
  exact ⟨Be 0 (by simp), Bi 0 (by simp), Bf 3 (by simp), Bf 4 (by simp), Bf 5 (by simp)⟩

end QK
