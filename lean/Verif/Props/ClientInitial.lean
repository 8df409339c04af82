import Verif.Props.Client
import Verif.Props.InitialMany
/-
C123, continued: the initial conditions of the library may be called too.
-/
namespace QK.Props
open QK Spec Solve

section
variable {α : Type} [Arith α] {S : VarId → Prop} {g : Rectilinear α} {outs : List VarId}

theorem setTo_exists {m : Mgr α} {id : VarId} {B : Box} {f : Cell → Nat → α} (h : m.SetTo id B f) : m.contents id ≠ none := by
  obtain ⟨c, h, -⟩ := h
  rw [h]; simp

theorem behaves_outs {f : SM (Mgr α) Unit} (H : ∀ m : Mgr α, m.Good S → m.Laid → m.grid = g →
      ∃ m', f m = .ok () m' ∧ m'.Good S ∧ m'.Laid ∧ m.Extends m' ∧ (∀ id ∈ outs, m'.contents id ≠ none) ∧ ∀ id, id ∉ outs → m'.contents id = m.contents id) : Behaves S g (f, [], outs) := by
  intro m h hL hg _
  obtain ⟨m', k1, k2, k3, k4, k5, k6⟩ := H m h hL hg
  exact ⟨m', k1, .of k2 k3 k4 k6 k5⟩

/-- **C123** The initial conditions behave as solvers of a program should: they return and write their outputs only. So programs may call them and `C123_start` applies. They read no variables.
The mesh and the outputs have to fit: `shock_tube`, `electromagnetic_wave_1D`, `brio_wu_shock_tube` and `gem_challenge` take meshes of up to three dimensions, the others only of three (C65). -/
theorem C123_initial (hg : g.Sized) (h3 : g.rng.dims.length ≤ 3) (hS : ∀ id ∈ outs, S id ∧ 1 ≤ id.basis.points ∧ 6 ≤ id.comps.length) :
    (∀ s, Behaves S g (shockTube s outs, [], outs)) ∧
    (g.rng.dims.length = 3 → ∀ (r rhoJump pJump gamma : α) (ctr : List α), Behaves S g (radial (Init.Radial.setup r rhoJump pJump gamma ctr) outs, [], outs)) ∧
    (g.rng.dims.length = 3 → ∀ (amp dev : α) (avg : List α), Behaves S g (gaussian (Init.Gaussian.setup amp avg dev) outs, [], outs)) ∧
    (g.rng.dims.length = 3 → ∀ amp dev : α, Behaves S g (pulse amp dev outs, [], outs)) ∧
    (∀ w : Init.Wave α, (∀ d : Nat, d < 3 → w.dim = d → d < g.rng.dims.length) → Behaves S g (wave w outs, [], outs)) ∧
    (∀ (s : Init.BrioWu α) (oe oi of : VarId), outs = [oe, oi, of] → outs.Nodup → oi.basis.points = oe.basis.points → of.basis.points = oe.basis.points → oi.comps.length = oe.comps.length →
      Behaves S g (brioWu s outs, [], outs)) ∧
    (∀ (s : Init.Gem α) (oe oi of : VarId), outs = [oe, oi, of] → outs.Nodup → oi.basis.points = oe.basis.points → of.basis.points = oe.basis.points → Behaves S g (gem s outs, [], outs)) := by
  have h5 : ∀ id ∈ outs, S id ∧ 1 ≤ id.basis.points ∧ 5 ≤ id.comps.length := fun id hid => by
    have := hS id hid; exact ⟨this.1, this.2.1, by omega⟩
  have h1 : ∀ id ∈ outs, S id ∧ 1 ≤ id.basis.points ∧ 1 ≤ id.comps.length := fun id hid => by
    have := hS id hid; exact ⟨this.1, this.2.1, by omega⟩
  have three : ∀ l : List α, ∃ a b c, Init.resize3 l = [a, b, c] := by
    intro l
    have := resize3_length l
    match hl : Init.resize3 l, this with
    | [a, b, c], _ => exact ⟨a, b, c, rfl⟩
  refine ⟨fun s => behaves_outs fun m h hL e => ?_, fun e3 r rhoJump pJump gamma ctr => behaves_outs fun m h hL e => ?_, fun e3 amp dev avg => behaves_outs fun m h hL e => ?_,
    fun e3 amp dev => behaves_outs fun m h hL e => ?_, fun w hd => behaves_outs fun m h hL e => ?_, fun s oe oi of eo nd p1 p2 n1 => behaves_outs fun m h hL e => ?_,
    fun s oe oi of eo nd p1 p2 => behaves_outs fun m h hL e => ?_⟩
  · obtain ⟨m', k1, k2, k3, k4, k5, k6⟩ := C63_shock_tube s h hL (by rw [e]; exact hg) (by rw [e]; exact h3) h5
    exact ⟨m', k1, k2, k3, k4, fun id hid => setTo_exists (k5 id hid), k6⟩
  · obtain ⟨a, b, c, hc⟩ := three ctr
    obtain ⟨m', k1, k2, k3, k4, k5, k6⟩ := C65_radial_partial (Init.Radial.setup r rhoJump pJump gamma ctr) hc h hL (by rw [e]; exact hg) (by rw [e]; exact e3) h5
    exact ⟨m', k1, k2, k3, k4, fun id hid => setTo_exists (k5 id hid), k6⟩
  · obtain ⟨a, b, c, hc⟩ := three avg
    obtain ⟨m', k1, k2, k3, k4, k5, k6⟩ := C65_gaussian_partial (Init.Gaussian.setup amp avg dev) hc h hL (by rw [e]; exact hg) (by rw [e]; exact e3) h1
    exact ⟨m', k1, k2, k3, k4, fun id hid => setTo_exists (k5 id hid), k6⟩
  · obtain ⟨m', k1, k2, k3, k4, k5, k6⟩ := C65_pulse_partial amp dev h hL (by rw [e]; exact hg) (by rw [e]; exact e3) hS
    exact ⟨m', k1, k2, k3, k4, fun id hid => setTo_exists (k5 id hid), k6⟩
  · by_cases hdim : w.dim = 0 ∨ w.dim = 1 ∨ w.dim = 2
    · obtain ⟨d, hd3, hwd⟩ : ∃ d : Nat, d < 3 ∧ w.dim = d := by
        rcases hdim with e | e | e
        · exact ⟨0, by decide, by rw [e]; rfl⟩
        · exact ⟨1, by decide, by rw [e]; rfl⟩
        · exact ⟨2, by decide, by rw [e]; rfl⟩
      have : ∀ x : Cell, ∃ l : List α, Init.waveState w (Arith.sin (w.k * centre m.grid x d)) = some l ∧ l.length = 6 := by
        intro x
        unfold Init.waveState
        rcases hdim with e | e | e <;> rw [e] <;> exact ⟨_, rfl, rfl⟩
      choose vs hvs hlen using this
      obtain ⟨m', k1, k2, k3, k4, k5, k6⟩ := wave_all w hwd h hL (by rw [e]; exact hg) (by rw [e]; exact h3) (by rw [e]; exact hd d hd3 hwd) hvs hlen hS
      exact ⟨m', k1, k2, k3, k4, fun id hid => setTo_exists (k5 id hid), k6⟩
    · obtain ⟨m', k1, k2, k3, k4, k5, k6⟩ := C64_no_direction w hdim h hL (fun id hid => ⟨(hS id hid).1, (hS id hid).2.1⟩)
      exact ⟨m', k1, k2, k3, k4, fun id hid => (k5 id hid).exists, k6⟩
  · subst eo
    simp only [List.nodup_cons, List.mem_cons, List.not_mem_nil, or_false, not_or] at nd
    have a1 := h5 oe (by simp); have a2 := h5 oi (by simp); have a3 := h5 of (by simp)
    obtain ⟨m', k1, k2, k3, k4, k5, k6, k7, k8⟩ := brio_all s h hL (by rw [e]; exact hg) (by rw [e]; exact h3) a1.1 a2.1 a3.1 nd.1.1 nd.1.2 nd.2.1 a1.2.1 p1 p2 a1.2.2 n1 a3.2.2
    refine ⟨m', k1, k2, k3, k4, fun id hid => ?_, fun id hid => ?_⟩
    · simp at hid
      rcases hid with rfl | rfl | rfl
      · exact setTo_exists k5
      · exact setTo_exists k6
      · exact setTo_exists k7
    · simp at hid; exact k8 id hid.1 hid.2.1 hid.2.2
  · subst eo
    simp only [List.nodup_cons, List.mem_cons, List.not_mem_nil, or_false, not_or] at nd
    have a1 := h5 oe (by simp); have a2 := h5 oi (by simp); have a3 := h5 of (by simp)
    obtain ⟨m', k1, k2, k3, k4, k5, k6, k7, k8⟩ := gem_all s h hL (by rw [e]; exact hg) (by rw [e]; exact h3) a1.1 a2.1 a3.1 nd.1.1 nd.1.2 nd.2.1 a1.2.1 p1 p2 a1.2.2 a2.2.2 a3.2.2 []
    refine ⟨m', k1, k2, k3, k4, fun id hid => ?_, fun id hid => ?_⟩
    · simp at hid
      rcases hid with rfl | rfl | rfl
      · exact setTo_exists k5
      · exact setTo_exists k6
      · exact setTo_exists k7
    · simp at hid; exact k8 id hid.1 hid.2.1 hid.2.2

end

/-! ### Example -/

def exLight (name : String) : VarId := ⟨name, GemChallenge.fieldComps, Basis.volumeAverage⟩
def exLights : List VarId := [exLight "u", exLight "du", exLight "next"]

/-- A program that is not shipped: a magnetic pulse, then 100 steps of first order in time. -/
noncomputable def exPulse : Client ℝ :=
  .seq (.call (.own (pulse 1 (1 / 2) [exLight "u", exLight "next"]) [] [exLight "u", exLight "next"])) <| .seq (.call (.setDt (1 / 100))) <|
  .loop 100 <| .seq (.call (.periodic [0, 1, 2] [exLight "u"])) <| .seq (.call (.fill [exLight "du"] 0)) <|
    .seq (.call (.maxwell 1 [exLight "u"] [exLight "du"])) <| .seq (.call (.rk1 [exLight "u", exLight "du"] [exLight "next"] 0)) (.call (.swap [exLight "u", exLight "next"]))

example : ∃ m', exPulse.run (Mgr.make (⟨Range.setup [(0,4),(0,3),(0,2)], [0,0,0], [4,3,2], [1,1,1]⟩ : Rectilinear ℝ)) = .ok () m' ∧ m'.contents (exLight "u") ≠ none := by
  obtain ⟨k', hk⟩ : ∃ k', Known.check exLights [(0,4),(0,3),(0,2)] ⟨[], false⟩ exPulse = some k' := ⟨_, rfl⟩
  obtain ⟨m', a1, -, -, -, a5, -⟩ := C123_start (names := exLights) (g := ⟨Range.setup [(0,4),(0,3),(0,2)], [0,0,0], [4,3,2], [1,1,1]⟩) (p := exPulse)
    (by intro a b ha hb; simp only [exLights, List.mem_cons, List.not_mem_nil, or_false] at ha hb; rcases ha with rfl | rfl | rfl <;> rcases hb with rfl | rfl | rfl <;> decide)
    (by decide) (by decide) (by decide) rfl hk (by
      intro f hf
      have hf : f = (pulse 1 (1 / 2) [exLight "u", exLight "next"], [], [exLight "u", exLight "next"]) := by simpa [exPulse, Client.owns] using hf
      subst hf
      exact (C123_initial ⟨rfl, rfl⟩ (by decide) (by decide)).2.2.2.1 rfl 1 (1 / 2))
  refine ⟨m', a1, a5.exist _ ?_⟩
  have : k' = _ := (Option.some.inj hk).symm
  subst this
  decide

end QK.Props
