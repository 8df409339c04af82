import Verif.Proofs.Loop
import Verif.Model.Examples
/- Helper lemmas for the example programs with one variable: stages, steps, runs. -/
namespace QK
open Spec Solve Props

section
variable {α : Type} [Arith α]

/-- The ids of a program with one variable of `n` components. -/
structure SoloVars (S : VarId → Prop) (v : Five) (p : Int) (n : Nat) : Prop where
  rk : RKVars S v.q v.rhs v.q1 v.q2 v.q3
  points : v.q.basis.points = p
  pos : 1 ≤ p
  comps : v.q.comps.length = n

/-- State of such a program between steps. -/
structure SoloBetween (S : VarId → Prop) (v : Five) (g : Rectilinear α) (t time : α) (q : Cell → α) (m : Mgr α) : Prop where
  good : m.Good S
  laid : m.Laid
  grid : m.grid = g
  dt : m.dt = some t
  time : m.time = some time
  holds : m.Stores v.q q

/-- What a stage does before it calls the integrator. -/
def SoloHead (S : VarId → Prop) (v : Five) (g : Rectilinear α) (t : α) (p : Int) (n : Nat) (ws : List Nat) (flip : Int → Prop) (ps : List Nat)
    (Rate : (Cell → α) → (Cell → α) → Prop) (stage : Bool → Nat → SM (Mgr α) Unit) : Prop :=
  ∀ {m : Mgr α} {k : Nat} {cur : Cell → α}, m.Good S → m.Laid → m.grid = g → m.dt = some t → k < 3 → m.Stores (v.at k) cur →
    ∃ m' cur' rate, (∀ al, stage al k m = ssprk3 al [v.q, v.rhs] [v.q1, v.q2, v.q3] k m') ∧ Keep S [v.at k, v.rhs] m m' ∧ m'.Stores (v.at k) cur' ∧
      m'.Stores v.rhs rate ∧ Filled g.rng.dims [(0, p), (0, (n : Int))] ws flip ps cur cur' ∧ Rate cur' rate

variable {S : VarId → Prop} {v : Five} {g : Rectilinear α} {t : α} {p : Int} {n : Nat} {ws : List Nat} {flip : Int → Prop} {ps : List Nat}
  {Rate : (Cell → α) → (Cell → α) → Prop} {stage : Bool → Nat → SM (Mgr α) Unit} {m : Mgr α}

theorem solo_stage (V : SoloVars S v p n) (H : SoloHead S v g t p n ws flip ps Rate stage) (h : m.Good S) (hL : m.Laid) (hg : m.grid = g) (ht : m.dt = some t)
    {k : Nat} (hk : k < 3) {start cur : Cell → α} (h0 : m.Stores v.q start) (hc : m.Stores (v.at k) cur) :
    ∃ m' cur' rate next, stage true k m = .ok () m' ∧ Keep S v.ids m m' ∧ m'.Stores (v.at (k + 1)) next ∧
      m'.Stores v.q (if k = 0 then cur' else start) ∧
      SoloStage g.rng.dims p n ws flip ps Rate t k (if k = 0 then cur' else start) cur cur' rate next := by
  have nd : v.ids.Nodup := V.rk.nodup
  have ne := fun j (hj : j < 4) l (hl : l < 5) => Five.at_ne nd (j := j) (k := l) hj hl
  obtain ⟨m1, cur', rate, a1, K1, a3, a4, a5, a6⟩ := H h hL hg ht hk hc
  have s1 : m1.Stores v.q (if k = 0 then cur' else start) := by
    by_cases k0 : k = 0
    · rw [if_pos k0]; subst k0; exact a3
    · rw [if_neg k0]
      refine K1.stores ?_ h0
      simp only [List.mem_cons, List.not_mem_nil, or_false, not_or]
      exact ⟨ne 0 (by omega) k (by omega) (by omega), ne 0 (by omega) 4 (by omega) (by omega)⟩
  obtain ⟨m2, b1, K2, b3⟩ := advance_fields V.rk hk K1.good K1.laid (K1.ext.dt.trans ht) s1 a3 a4
  refine ⟨m2, cur', rate, _, by rw [a1]; exact b1, K1.trans K2 ?_ ?_, b3, K2.stores ?_ s1, ⟨a5, a6, fun _ => rfl⟩⟩
  · intro id hid
    simp only [List.mem_cons, List.not_mem_nil, or_false] at hid
    rcases hid with rfl | rfl
    · exact v.at_mem k
    · exact v.rhs_mem
  · intro id hid
    simp only [List.mem_cons, List.not_mem_nil, or_false] at hid
    subst hid; exact v.at_mem _
  · simp only [List.mem_cons, List.not_mem_nil, or_false]
    exact ne 0 (by omega) (k + 1) (by omega) (by omega)

/-- One time step. -/
theorem solo_step (V : SoloVars S v p n) (H : SoloHead S v g t p n ws flip ps Rate stage) {time : α} {q : Cell → α} (B : SoloBetween S v g t time q m) :
    ∃ m' q', (do
        stage true 0
        stage true 1
        stage true 2
        swap [v.q, v.q3]
        SM.modifyRes (fun m => .ok (m.setTime (time + t)))
        return time + t : SM (Mgr α) α) m = .ok (time + t) m' ∧ SoloBetween S v g t (time + t) q' m' ∧
      SoloStep g.rng.dims p n ws flip ps Rate t q q' := by
  have nd : v.ids.Nodup := V.rk.nodup
  obtain ⟨m1, q0, r0, q1, a1, K1, a5, a6, a7⟩ := solo_stage V H B.good B.laid B.grid B.dt (k := 0) (by decide) B.holds B.holds
  simp only [if_true] at a6 a7
  have d1 := K1.ext.grid.trans B.grid
  obtain ⟨m2, q1', r1, q2, b1, K2, b5, b6, b7⟩ := solo_stage V H K1.good K1.laid d1 (K1.ext.dt.trans B.dt) (k := 1) (by decide) a6 a5
  rw [if_neg (by decide)] at b6 b7
  have d2 := K2.ext.grid.trans d1
  obtain ⟨m3, q2', r2, q3, c1, K3, c5, c6, c7⟩ := solo_stage V H K2.good K2.laid d2 (K2.ext.dt.trans (K1.ext.dt.trans B.dt)) (k := 2) (by decide) b6 b5
  rw [if_neg (by decide)] at c6 c7
  have d3 := K3.ext.grid.trans d2
  have hne : v.q ≠ v.q3 := Five.at_ne nd (j := 0) (k := 3) (by omega) (by omega) (by omega)
  obtain ⟨m4, s1, s2, s3, s4, s5⟩ := C38_swap K3.good (outs := [v.q, v.q3]) ⟨1, rfl⟩ (by simpa using hne) (by
    simp only [List.mem_cons, List.not_mem_nil, or_false, forall_eq_or_imp, forall_eq]
    exact ⟨c6.exists, c5.exists⟩)
  have w := s4 0 _ _ rfl rfl
  have ec := V.rk.comps v.q3 (by simp)
  have eb := V.rk.basis v.q3 (by simp)
  have L4 : m4.Laid := by
    intro id c hc
    rw [s3.grid]
    by_cases o1 : id = v.q
    · subst o1; rw [← ec, ← eb]; exact K3.laid v.q3 c (w.1.symm.trans hc)
    by_cases o2 : id = v.q3
    · subst o2; rw [ec, eb]; exact K3.laid v.q c (w.2.symm.trans hc)
    rw [s5 id (by simp [o1, o2])] at hc
    exact K3.laid id c hc
  have st : (m4.setTime (time + t)).Stores v.q q3 := by
    obtain ⟨c, hc, vc⟩ := c5
    refine ⟨c, w.1.trans hc, fun x hx => vc x ?_⟩
    show InBox (Mgr.arrayBox m3 v.q3) x
    unfold Mgr.arrayBox at hx ⊢
    rw [ec, eb, ← s3.grid]; exact hx
  refine ⟨m4.setTime (time + t), q3, ?_, ⟨Mgr.setTime_good' s2 _, L4, s3.grid.trans d3, s3.dt.trans (K3.ext.dt.trans (K2.ext.dt.trans (K1.ext.dt.trans B.dt))), rfl, st⟩,
    ⟨q0, r0, q1, q1', r1, q2, q2', r2, a7, b7, c7⟩⟩
  rw [SM.bind_ok a1, SM.bind_ok b1, SM.bind_ok c1, SM.bind_ok s1, SM.bind_ok (SM.modifyRes_ok (f := fun m => Res.ok (Mgr.setTime (time + t) m)) rfl)]; rfl

/-- Without the assumed alignment the first stage is undefined. -/
theorem solo_misaligned (V : SoloVars S v p n) (H : SoloHead S v g t p n ws flip ps Rate stage) {time : α} {q : Cell → α} (B : SoloBetween S v g t time q m) :
    ∃ w, stage false 0 m = .ub w := by
  obtain ⟨m1, cur', rate, a1, K1, a3, a4, a5, a6⟩ := H B.good B.laid B.grid B.dt (k := 0) (by decide) B.holds
  obtain ⟨w, hw⟩ := C68_false V.rk K1.good K1.laid (K1.ext.dt.trans B.dt) a3.exists a4.exists [] (tag := ((0 : Nat) : Int)) (.inl rfl)
  exact ⟨w, by rw [a1]; exact hw⟩

/-- A whole program with one variable, after an initial condition that sets the field `q0`. -/
theorem solo_program (V : SoloVars S v 1 n) (hb : v.q.basis = Basis.volumeAverage) (H : SoloHead S v g t 1 n ws flip ps Rate stage)
    {stepOf : Bool → α → α → SM (Mgr α) α} (hstep : ∀ al time, stepOf al t time = (do
        stage al 0
        stage al 1
        stage al 2
        swap [v.q, v.q3]
        SM.modifyRes (fun m => .ok (m.setTime (time + t)))
        return time + t))
    {ic : SM (Mgr α) Unit} {m0 : Mgr α} (hic : ic m = .ok () m0) (h : m0.Good S) (hL : m0.Laid) (hg : m0.grid = g)
    (hmade : ∃ (range : Range) (s w : List α), Rectilinear.make range s w = .ok g) (h3 : g.rng.dims.length ≤ 3) {q0 : Cell → α} (h0 : m0.Stores v.q q0)
    (canOpen : Nat → Bool) (numFrames numSteps : Nat) :
    (∃ (s : Nat → Cell → α) (file : Nat → List (Tok α)), s 0 = q0 ∧ (∀ j < numFrames * numSteps, SoloStep g.rng.dims 1 n ws flip ps Rate t (s j) (s (j + 1))) ∧
      (∀ j ≤ numFrames, FileShowsOne g.rng.dims v.q (s (j * numSteps)) (file j)) ∧
      RunEnds canOpen numFrames file (Run.main ic canOpen [v.q] (stepOf true) t numFrames numSteps ⟨m, []⟩)) ∧
    (canOpen 0 = true → 0 < numFrames → 0 < numSteps → ∃ w, Run.main ic canOpen [v.q] (stepOf false) t numFrames numSteps ⟨m, []⟩ = .ub w) := by
  have Sq : S v.q := V.rk.known v.q (by simp)
  have B : SoloBetween S v g t (Arith.lit 0) q0 ((m0.setTime (Arith.lit 0)).setDt t) :=
    ⟨Mgr.setDt_good (Mgr.setTime_good' h _) _, hL, hg, rfl, rfl, h0⟩
  obtain ⟨file0, w1, w2⟩ := file_shows_one (m := m0) Sq hb h hL (by rw [hg]; exact hmade) (by rw [hg]; exact h3) h0
  rw [hg] at w2
  have C : Cycle [v.q] (stepOf true t) t (SoloBetween S v g t) (SoloStep g.rng.dims 1 n ws flip ps Rate t) (FileShowsOne g.rng.dims v.q) := by
    refine ⟨by simp, ?_, ?_⟩
    · intro time q m B
      rw [hstep]
      exact solo_step V H B
    · intro time q m B
      have := file_shows_one (m := m) Sq hb B.good B.laid (by rw [B.grid]; exact hmade) (by rw [B.grid]; exact h3) B.holds
      rwa [B.grid] at this
  refine ⟨C.program hic B w1 w2 canOpen numFrames numSteps, ?_⟩
  intro hc hf hs
  obtain ⟨w, hw⟩ := solo_misaligned V H B
  refine ⟨w, main_step_ub hic w1 ?_ hc hf hs⟩
  rw [hstep]
  exact SM.bind_ub hw

end

/-! ### The two kinds of programs -/

section
variable {α : Type} [Arith α] {S : VarId → Prop} {g : Rectilinear α} {ws ps : List Nat} {t : α} {p : Int}

theorem sod_head {P : Sod α} (V : SoloVars S P.v p 5) (hW : P.walls = ints ws) (hP : P.periodic.getD [] = ints ps) (B : BCMesh g ws ps) :
    SoloHead S P.v g t p 5 ws isMomentum ps (GasRate g.rng.dims p g.dxAt P.gamma) P.stage := by
  intro m k cur h hL hg ht hk hc
  subst hg
  have nd : P.v.ids.Nodup := V.rk.nodup
  have hne : P.v.at k ≠ P.v.rhs := Five.at_ne nd (j := k) (k := 4) (by omega) (by omega) (by omega)
  have mem := P.v.at_mem k
  have Sk : S (P.v.at k) := V.rk.known _ mem
  have Sr : S P.v.rhs := V.rk.known _ P.v.rhs_mem
  have pk : (P.v.at k).basis.points = p := by rw [V.rk.basis _ mem]; exact V.points
  have pr : P.v.rhs.basis.points = p := by rw [V.rk.basis _ P.v.rhs_mem]; exact V.points
  have nk : (P.v.at k).comps.length = 5 := by rw [V.rk.comps _ mem]; exact V.comps
  have nr : P.v.rhs.comps.length = 5 := by rw [V.rk.comps _ P.v.rhs_mem]; exact V.comps
  have hp := V.pos
  have wl : ∀ i ∈ ws, i < m.grid.rng.dims.length := fun i hi => (B.sides i hi).1
  obtain ⟨m1, v1, a1, a2, a3, a4, a5, a6, a7⟩ := noSlip_one h hL Sk (by omega) (by omega) hc B.sides []
  have K1 := keep_one (P.v.at k) a2 a3 a4 a5
  have e1 : noSlip P.walls [P.v.at k] m = .ok () m1 := by rw [hW, a1]; rfl
  rw [pk, nk] at a7
  obtain ⟨m2, v2, b1, K2, b2, b3⟩ : ∃ m2 v2, Plasma.periodicBc P.periodic [P.v.at k] m1 = .ok () m2 ∧ Keep S [P.v.at k] m1 m2 ∧ m2.Stores (P.v.at k) v2 ∧
      Filled m.grid.rng.dims [(0, p), (0, ((5 : Nat) : Int))] ws isMomentum ps cur v2 := by
    cases hper : P.periodic with
    | none =>
      rw [hper] at hP
      have e0 := ints_nil hP
      subst e0
      exact ⟨m1, v1, rfl, ⟨a2, a3, .refl _, fun _ _ _ h => h⟩, a6, Filled.of h.mesh_pos wl B.wraps B.disjoint a7 (.none _)⟩
    | some dsi =>
      rw [hper] at hP
      replace hP : dsi = ints ps := hP
      obtain ⟨m4, w1, d1, d2, d3, d4, d5, d6, d7⟩ := periodic_one a2 a3 Sk (by omega) (by omega) a6 (by rw [a4.grid]; exact B.wraps) []
      rw [pk, nk, a4.grid] at d7
      refine ⟨m4, w1, ?_, keep_one _ d2 d3 d4 d5, d6, Filled.of h.mesh_pos wl B.wraps B.disjoint a7 d7⟩
      show periodic dsi [P.v.at k] m1 = _
      rw [hP, d1]; rfl
  have k2 : Keep S [P.v.at k] m m2 := K1.trans K2 (fun _ h => h) (fun _ h => h)
  obtain ⟨m3, c1, c2, c3, c4, c5, c6⟩ := fill_fields (Arith.lit 0 : α) [P.v.rhs] k2.good k2.laid (by simpa using Sr)
  have K3 : Keep S [P.v.rhs] m2 m3 := ⟨c2, c3, c4, fun id c hid hc => by rw [c6 id hid]; exact hc⟩
  have d3 : m3.grid = m.grid := c4.grid.trans k2.ext.grid
  have s3 := K3.stores (by simpa using hne) b2
  obtain ⟨m4, x, f1, f2, f3, f4, f5, f6, f7⟩ := euler_fields P.gamma c2 c3 (c4.dt.trans (k2.ext.dt.trans ht)) (by rw [d3]; exact B.widths) (by rw [d3]; exact B.four)
    Sk Sr hne hp pk pr nk nr s3 (c5 _ (by simp))
  have K4 := keep_one P.v.rhs f2 f3 f4 f5
  refine ⟨m4, v2, x, fun al => ?_, k2.trans (K3.trans K4 (fun _ h => h) (fun _ h => h)) (by simp) (by simp), K4.stores (by simpa using hne) s3, f6, b3, ?_⟩
  · unfold Sod.stage
    rw [SM.bind_ok e1, SM.bind_ok b1, SM.bind_ok c1, SM.bind_ok f1]
  · rw [d3] at f7; exact f7

theorem light_head {P : Light α} (V : SoloVars S P.v p 6) (hP : P.periodic = ints ps) (B : BCMesh g [] ps) :
    SoloHead S P.v g t p 6 [] isWallField ps (LightRate g.rng.dims p g.dxAt P.c) P.stage := by
  intro m k cur h hL hg ht hk hc
  subst hg
  have nd : P.v.ids.Nodup := V.rk.nodup
  have hne : P.v.at k ≠ P.v.rhs := Five.at_ne nd (j := k) (k := 4) (by omega) (by omega) (by omega)
  have mem := P.v.at_mem k
  have Sk : S (P.v.at k) := V.rk.known _ mem
  have Sr : S P.v.rhs := V.rk.known _ P.v.rhs_mem
  have pk : (P.v.at k).basis.points = p := by rw [V.rk.basis _ mem]; exact V.points
  have pr : P.v.rhs.basis.points = p := by rw [V.rk.basis _ P.v.rhs_mem]; exact V.points
  have nk : (P.v.at k).comps.length = 6 := by rw [V.rk.comps _ mem]; exact V.comps
  have nr : P.v.rhs.comps.length = 6 := by rw [V.rk.comps _ P.v.rhs_mem]; exact V.comps
  have hp := V.pos
  obtain ⟨m2, v2, d1, d2, d3, d4, d5, b2, d7⟩ := periodic_one h hL Sk (by omega) (by omega) hc B.wraps []
  have b1 : periodic P.periodic [P.v.at k] m = .ok () m2 := by rw [hP, d1]; rfl
  have k2 := keep_one (P.v.at k) d2 d3 d4 d5
  rw [pk, nk] at d7
  obtain ⟨m3, c1, c2, c3, c4, c5, c6⟩ := fill_fields (Arith.lit 0 : α) [P.v.rhs] k2.good k2.laid (by simpa using Sr)
  have K3 : Keep S [P.v.rhs] m2 m3 := ⟨c2, c3, c4, fun id c hid hc => by rw [c6 id hid]; exact hc⟩
  have d3 : m3.grid = m.grid := c4.grid.trans k2.ext.grid
  have s3 := K3.stores (by simpa using hne) b2
  obtain ⟨m4, x, f1, f2, f3, f4, f5, f6, f7⟩ := maxwell_fields P.c c2 c3 (by rw [d3]; exact B.widths) Sk Sr hne hp pk pr nk nr s3 (c5 _ (by simp))
  have K4 := keep_one P.v.rhs f2 f3 f4 f5
  refine ⟨m4, v2, x, fun al => ?_, k2.trans (K3.trans K4 (fun _ h => h) (fun _ h => h)) (by simp) (by simp), K4.stores (by simpa using hne) s3, f6, ?_, ?_⟩
  · unfold Light.stage
    rw [SM.bind_ok b1, SM.bind_ok c1, SM.bind_ok f1]
  · refine Filled.of h.mesh_pos (by simp) B.wraps B.disjoint ⟨?_, ?_, ?_⟩ d7 <;> simp
  · rw [d3] at f7; exact f7

end
end QK
