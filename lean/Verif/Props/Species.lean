import Verif.Props.Symmetry
import Verif.Model.ArithReal
/-
C130: the two species are treated alike; a species without charge is a gas, fields without currents are light.
-/
namespace QK.Spec
variable {α : Type}

/-- The state with electrons and ions exchanged. -/
def State.exchange (s : State α) : State α := ⟨s.i, s.e, s.f⟩

end QK.Spec

namespace QK.Props
open QK Spec

/-- The program that calls the ions electrons and the electrons ions: their charge over mass and the multipliers of their currents are exchanged. -/
def exchanged {α : Type} (P : Plasma α) : Plasma α := { P with e := P.i, i := P.e, comE := P.comI, comI := P.comE, mults := P.mults.reverse }

section
variable {g : Rectilinear ℝ} {p : Int} {ws ps : List Nat} {P : Plasma ℝ} {t : ℝ}

theorem stage_exchange (hm : P.mults.length = 2) {k : Nat} {s c c' r n : State ℝ} (h : PlasmaStage P g p ws ps t k s c c' r n) :
    PlasmaStage (exchanged P) g p ws ps t k s.exchange c.exchange c'.exchange r.exchange n.exchange := by
  refine ⟨h.fill_i, h.fill_e, h.fill_f, h.rate_i, h.rate_e, ?_, h.next_i, h.next_e, h.next_f⟩
  obtain ⟨r0, h0, h1⟩ := h.rate_f
  refine ⟨r0, h0, ⟨fun x k hx hk hk' => ?_, h1.rest⟩⟩
  have := h1.field x k hx hk hk'
  match hP : P.mults, hm with
  | [a, b], _ =>
    simp only [hP, List.zip_cons_cons, List.zip_nil_left, List.foldl_cons, List.foldl_nil] at this
    simp only [exchanged, hP, State.exchange, List.reverse_cons, List.reverse_nil, List.nil_append, List.cons_append, List.zip_cons_cons, List.zip_nil_left, List.foldl_cons, List.foldl_nil]
    rw [this]; ring

theorem step_exchange (hm : P.mults.length = 2) {q q' : State ℝ} (h : PlasmaStep P g p ws ps t q q') :
    PlasmaStep (exchanged P) g p ws ps t q.exchange q'.exchange := by
  obtain ⟨q0, r0, q1, q1', r1, q2, q2', r2, h0, h1, h2⟩ := h
  exact ⟨_, _, _, _, _, _, _, _, stage_exchange hm h0, stage_exchange hm h1, stage_exchange hm h2⟩

/-- **C130** The names of the species do not matter: a run of a plasma program and a run of the program with electrons and ions exchanged, from the exchanged start, agree
in all cells after every number of steps, up to the exchange. Exact arithmetic. -/
theorem C130_exchange (C : Covered g.rng.dims ws ps) (hm : P.mults.length = 2) {k : Nat} {u v : Nat → State ℝ}
    (hu : ∀ j < k, PlasmaStep P g p ws ps t (u j) (u (j + 1))) (hv : ∀ j < k, PlasmaStep (exchanged P) g p ws ps t (v j) (v (j + 1)))
    (h0 : SameState g.rng.dims p (u 0).exchange (v 0)) : ∀ j ≤ k, SameState g.rng.dims p (u j).exchange (v j) :=
  (C90_unique C).2.2 (by simpa [exchanged] using hm) (u := fun j => (u j).exchange) (fun j hj => step_exchange hm (hu j hj)) hv h0

theorem neutral_rate {M : Box} {dx : Nat → ℝ} {gamma : ℝ} {u w r : Cell → ℝ} : FluidRate M p dx gamma 0 u w r ↔ GasRate M p dx gamma u r := by
  constructor
  · rintro ⟨r0, h0, h1⟩ x hx j hj
    rw [← h0 x hx j hj]
    have h : ∀ i : Int, r (x ++ [i]) = r0 (x ++ [i]) := by
      intro i
      by_cases hi : 1 ≤ i ∧ i ≤ 4
      · have : i = 1 ∨ i = 2 ∨ i = 3 ∨ i = 4 := by omega
        rcases this with rfl | rfl | rfl | rfl
        · rw [h1.momX x hx]; ring
        · rw [h1.momY x hx]; ring
        · rw [h1.momZ x hx]; ring
        · rw [h1.energy x hx]; ring
      · refine h1.rest _ fun y l _ h h' e => hi ?_
        have := (List.append_inj' e rfl).2
        simp only [List.cons.injEq, and_true] at this
        omega
    exact h j
  · intro h
    exact ⟨r, h, ⟨fun x _ => by ring, fun x _ => by ring, fun x _ => by ring, fun x _ => by ring, fun _ _ => rfl⟩⟩

theorem vacuum_rate {M : Box} {dx : Nat → ℝ} {c : ℝ} {e i u r : Cell → ℝ} : FieldRate M p dx c ([0, 0].zip [e, i]) u r ↔ LightRate M p dx c u r := by
  constructor
  · rintro ⟨r0, h0, h1⟩ x hx j hj
    rw [← h0 x hx j hj]
    by_cases hl : j < 3
    · rw [h1.field x j hx (by omega) (by omega)]; simp
    · refine h1.rest _ fun y l _ h h' e => hl ?_
      have := (List.append_inj' e rfl).2
      simp only [List.cons.injEq, and_true] at this
      omega
  · intro h
    exact ⟨r, h, ⟨fun x k _ _ _ => by simp, fun _ _ => rfl⟩⟩

/-- **C130** A species without charge does not notice the field: it makes exactly the time steps of a gas alone. Exact arithmetic. -/
theorem C130_neutral {q q' : State ℝ} (h : PlasmaStep P g p ws ps t q q') :
    (P.comE = 0 → GasStep g p ws ps P.gamma t q.e q'.e) ∧ (P.comI = 0 → GasStep g p ws ps P.gamma t q.i q'.i) := by
  obtain ⟨q0, r0, q1, q1', r1, q2, q2', r2, h0, h1, h2⟩ := h
  refine ⟨fun hc => ⟨q0.e, r0.e, q1.e, q1'.e, r1.e, q2.e, q2'.e, r2.e, ?_⟩, fun hc => ⟨q0.i, r0.i, q1.i, q1'.i, r1.i, q2.i, q2'.i, r2.i, ?_⟩⟩
  · exact ⟨⟨h0.fill_e, neutral_rate.1 (hc ▸ h0.rate_e), h0.next_e⟩, ⟨h1.fill_e, neutral_rate.1 (hc ▸ h1.rate_e), h1.next_e⟩, ⟨h2.fill_e, neutral_rate.1 (hc ▸ h2.rate_e), h2.next_e⟩⟩
  · exact ⟨⟨h0.fill_i, neutral_rate.1 (hc ▸ h0.rate_i), h0.next_i⟩, ⟨h1.fill_i, neutral_rate.1 (hc ▸ h1.rate_i), h1.next_i⟩, ⟨h2.fill_i, neutral_rate.1 (hc ▸ h2.rate_i), h2.next_i⟩⟩

/-- **C130** A field whose sources are switched off makes the time steps of light alone (between conducting walls in the directions `ws`; without walls these are the
steps of the Maxwell programs). Exact arithmetic. -/
theorem C130_vacuum (hm : P.mults = [0, 0]) {q q' : State ℝ} (h : PlasmaStep P g p ws ps t q q') :
    SoloStep g.rng.dims p 6 ws isWallField ps (LightRate g.rng.dims p g.dxAt P.c) t q.f q'.f ∧ (ws = [] → LightStep g p ps P.c t q.f q'.f) := by
  obtain ⟨q0, r0, q1, q1', r1, q2, q2', r2, h0, h1, h2⟩ := h
  have : SoloStep g.rng.dims p 6 ws isWallField ps (LightRate g.rng.dims p g.dxAt P.c) t q.f q'.f :=
    ⟨q0.f, r0.f, q1.f, q1'.f, r1.f, q2.f, q2'.f, r2.f, ⟨h0.fill_f, vacuum_rate.1 (hm ▸ h0.rate_f), h0.next_f⟩, ⟨h1.fill_f, vacuum_rate.1 (hm ▸ h1.rate_f), h1.next_f⟩,
      ⟨h2.fill_f, vacuum_rate.1 (hm ▸ h2.rate_f), h2.next_f⟩⟩
  exact ⟨this, fun hw => by subst hw; exact this⟩

/-- The program with electrons that have no charge. -/
def uncharged (P : Plasma ℝ) : Plasma ℝ := { P with comE := 0 }

theorem passive_rate {M : Box} {dx : Nat → ℝ} {c b : ℝ} {e e' i u r : Cell → ℝ} (h : FieldRate M p dx c ([0, b].zip [e, i]) u r) : FieldRate M p dx c ([0, b].zip [e', i]) u r := by
  obtain ⟨r0, h0, h1⟩ := h
  exact ⟨r0, h0, fun x k hx hk hk' => by simpa using h1.field x k hx hk hk', h1.rest⟩

theorem passive_step {b : ℝ} (hm : P.mults = [0, b]) {q q' : State ℝ} {w w' : Cell → ℝ} (h : PlasmaStep P g p ws ps t q q') (hw : GasStep g p ws ps P.gamma t w w') :
    PlasmaStep (uncharged P) g p ws ps t ⟨w, q.i, q.f⟩ ⟨w', q'.i, q'.f⟩ := by
  obtain ⟨q0, r0, q1, q1', r1, q2, q2', r2, h0, h1, h2⟩ := h
  obtain ⟨p0, s0, p1, p1', s1, p2, p2', s2, k0, k1, k2⟩ := hw
  refine ⟨⟨p0, q0.i, q0.f⟩, ⟨s0, r0.i, r0.f⟩, ⟨p1, q1.i, q1.f⟩, ⟨p1', q1'.i, q1'.f⟩, ⟨s1, r1.i, r1.f⟩, ⟨p2, q2.i, q2.f⟩, ⟨p2', q2'.i, q2'.f⟩, ⟨s2, r2.i, r2.f⟩, ?_, ?_, ?_⟩
  · exact ⟨k0.fill, h0.fill_i, h0.fill_f, neutral_rate.2 k0.rates, h0.rate_i, by have := h0.rate_f; rw [hm] at this; simpa only [uncharged, hm] using passive_rate this, k0.next, h0.next_i, h0.next_f⟩
  · exact ⟨k1.fill, h1.fill_i, h1.fill_f, neutral_rate.2 k1.rates, h1.rate_i, by have := h1.rate_f; rw [hm] at this; simpa only [uncharged, hm] using passive_rate this, k1.next, h1.next_i, h1.next_f⟩
  · exact ⟨k2.fill, h2.fill_i, h2.fill_f, neutral_rate.2 k2.rates, h2.rate_i, by have := h2.rate_f; rw [hm] at this; simpa only [uncharged, hm] using passive_rate this, k2.next, h2.next_i, h2.next_f⟩

/-- **C130** The fluids act on each other only through the currents: if the current of the electrons is switched off, ions and field do not depend on the electrons at
all – not on their start, and not on their charge. Exact arithmetic. -/
theorem C130_passive (C : Covered g.rng.dims ws ps) (hw : ∀ i ∈ ws, i < g.rng.dims.length) (hp : ∀ i ∈ ps, i < g.rng.dims.length) (hd : ∀ i ∈ ws, i ∉ ps)
    {b com : ℝ} (hm : P.mults = [0, b]) {k : Nat} {u v : Nat → State ℝ}
    (hu : ∀ j < k, PlasmaStep P g p ws ps t (u j) (u (j + 1))) (hv : ∀ j < k, PlasmaStep { P with comE := com } g p ws ps t (v j) (v (j + 1)))
    (hi : SameOn g.rng.dims p 5 (u 0).i (v 0).i) (hf : SameOn g.rng.dims p 6 (u 0).f (v 0).f) :
    ∀ j ≤ k, SameOn g.rng.dims p 5 (u j).i (v j).i ∧ SameOn g.rng.dims p 6 (u j).f (v j).f := by
  obtain ⟨w, -, H⟩ := (C90_exists hw hp hd t).1 P.gamma (u 0).e
  intro j hj
  have := (C90_unique C).2.2 (P := uncharged P) (by simp [uncharged, hm]) (u := fun j => ⟨w j, (u j).i, (u j).f⟩) (v := fun j => ⟨w j, (v j).i, (v j).f⟩)
    (fun j hj => passive_step hm (hu j hj) (H j)) (fun j hj => passive_step (P := { P with comE := com }) hm (hv j hj) (H j)) ⟨fun _ _ _ _ => rfl, hi, hf⟩ j hj
  exact ⟨this.i, this.f⟩

end

-- 3 x 4 cells, periodic in both directions: from every state there is a run of the program and a run of the exchanged program; after ten steps the electrons of one are
-- the ions of the other
example (P : Plasma ℝ) (hm : P.mults = [-1, 2]) (q : State ℝ) : ∃ u v : Nat → State ℝ, u 0 = q ∧ v 0 = q.exchange ∧
    SameOn [(0, 3), (0, 4)] 1 5 (u 10).e (v 10).i := by
  have E := fun (Q : Plasma ℝ) => (C90_exists (g := (⟨Range.setup [(0, 3), (0, 4)], [0, 0], [1, 1], [1 / 3, 1 / 4]⟩ : Rectilinear ℝ)) (p := (1 : Nat)) (ws := [])
    (ps := [0, 1]) (by simp) (by simp [Range.setup]) (by simp) (1 / 1000)).2.2 Q
  obtain ⟨u, hu, H⟩ := E P q
  obtain ⟨v, hv, K⟩ := E (exchanged P) q.exchange
  refine ⟨u, v, hu, hv, ?_⟩
  exact (C130_exchange (k := 10) ⟨by decide, by decide⟩ (by simp [hm]) (fun j _ => H j) (fun j _ => K j) (by rw [hu, hv]; exact ⟨fun _ _ _ _ => rfl, fun _ _ _ _ => rfl, fun _ _ _ _ => rfl⟩) 10 le_rfl).i

-- neutral electrons without a current between walls: a step exists; its electrons make the step of a gas, and ions and field do not depend on them
example (P : Plasma ℝ) (hc : P.comE = 0) (hm : P.mults = [0, 2]) (q : State ℝ) (e : Cell → ℝ) : ∃ u v : Nat → State ℝ, u 0 = q ∧ v 0 = ⟨e, q.i, q.f⟩ ∧
    GasStep (⟨Range.setup [(0, 3), (0, 4)], [0, 0], [1, 1], [1 / 3, 1 / 4]⟩ : Rectilinear ℝ) 1 [1] [0] P.gamma (1 / 1000) (u 0).e (u 1).e ∧
    SameOn [(0, 3), (0, 4)] 1 6 (u 10).f (v 10).f := by
  have E := (C90_exists (g := (⟨Range.setup [(0, 3), (0, 4)], [0, 0], [1, 1], [1 / 3, 1 / 4]⟩ : Rectilinear ℝ)) (p := (1 : Nat)) (ws := [1])
    (ps := [0]) (by simp [Range.setup]) (by simp [Range.setup]) (by simp) (1 / 1000)).2.2 P
  obtain ⟨u, hu, H⟩ := E q
  obtain ⟨v, hv, K⟩ := E ⟨e, q.i, q.f⟩
  refine ⟨u, v, hu, hv, (C130_neutral (H 0)).1 hc, ?_⟩
  exact (C130_passive (com := P.comE) (k := 10) ⟨by decide, by decide⟩ (by simp [Range.setup]) (by simp [Range.setup]) (by simp) hm (fun j _ => H j) (fun j _ => K j)
    (by rw [hu, hv]; exact fun _ _ _ _ => rfl) (by rw [hu, hv]; exact fun _ _ _ _ => rfl) 10 le_rfl).2

-- no currents, no walls: the field of a plasma program makes the steps of the Maxwell programs
example (P : Plasma ℝ) (hm : P.mults = [0, 0]) (q : State ℝ) : ∃ u : Nat → State ℝ, u 0 = q ∧
    LightStep (⟨Range.setup [(0, 3), (0, 4)], [0, 0], [1, 1], [1 / 3, 1 / 4]⟩ : Rectilinear ℝ) 1 [0, 1] P.c (1 / 1000) (u 0).f (u 1).f := by
  obtain ⟨u, hu, H⟩ := (C90_exists (g := (⟨Range.setup [(0, 3), (0, 4)], [0, 0], [1, 1], [1 / 3, 1 / 4]⟩ : Rectilinear ℝ)) (p := (1 : Nat)) (ws := [])
    (ps := [0, 1]) (by simp) (by simp [Range.setup]) (by simp) (1 / 1000)).2.2 P q
  exact ⟨u, hu, (C130_vacuum hm (H 0)).2 rfl⟩

end QK.Props
