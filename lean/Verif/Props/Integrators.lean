import Mathlib.Analysis.Convex.Basic
import Verif.Model.ArithReal
import Verif.Proofs.Solvers
import Verif.Props.Variable
import Verif.Proofs.Examples
/-
Properties of the time integrators and of the argument checks of solvers: C37, C47, C48, C49, C56 (ssprk3), C68.
-/
namespace QK.Props
open Spec Solve

/-! ## C37 -/

section
variable {α : Type} [Arith α]

/-- **C37** Euler and Maxwell. -/
theorem C37_flux (p : α) {ins outs : List VarId} (h : ins.length ≠ 1 ∨ outs.length ≠ 1) (m : Mgr α) :
    (∃ msg, euler p ins outs m = .throw msg m) ∧ ∃ msg, maxwell p ins outs m = .throw msg m := by
  match ins, outs, h with
  | [], _, _ => exact ⟨⟨_, rfl⟩, _, rfl⟩
  | [_], [], _ => exact ⟨⟨_, rfl⟩, _, rfl⟩
  | [_], _ :: _ :: _, _ => exact ⟨⟨_, rfl⟩, _, rfl⟩
  | _ :: _ :: _, _, _ => exact ⟨⟨_, rfl⟩, _, rfl⟩

/-- **C37** The Lorentz force. -/
theorem C37_lorentz (com : α) {ins outs : List VarId} (h : ins.length ≠ 2 ∨ outs.length ≠ 1) (m : Mgr α) :
    ∃ msg, lorentz com ins outs m = .throw msg m := by
  match ins, outs, h with
  | [], _, _ => exact ⟨_, rfl⟩
  | [_], _, _ => exact ⟨_, rfl⟩
  | [_, _], [], _ => exact ⟨_, rfl⟩
  | [_, _], _ :: _ :: _, _ => exact ⟨_, rfl⟩
  | _ :: _ :: _ :: _, _, _ => exact ⟨_, rfl⟩

/-- **C37** The current source. -/
theorem C37_current (mults : List α) {ins outs : List VarId} (h : ins.length ≠ mults.length ∨ outs.length ≠ 1) (m : Mgr α) :
    ∃ msg, current mults ins outs m = .throw msg m := by
  unfold current
  by_cases hi : ins.length = mults.length
  · rw [if_neg (not_not.2 hi)]
    match outs, h with
    | [], _ => exact ⟨_, rfl⟩
    | [_], h => simp [hi] at h
    | _ :: _ :: _, _ => exact ⟨_, rfl⟩
  · rw [if_pos hi]; exact ⟨_, rfl⟩

/-- **C37** The integrators. -/
theorem C37_integrators (al : Bool) {ins outs : List VarId} (tag : Int) (m : Mgr α) :
    (ins.length ≠ 2 ∨ outs.length < 3 → ∃ msg, ssprk3 al ins outs tag m = .throw msg m) ∧
    (ins.length ≠ 2 ∨ outs.length < 1 → ∃ msg, rk1 ins outs tag m = .throw msg m) := by
  constructor
  · intro h
    match ins, outs, h with
    | [], _, _ => exact ⟨_, rfl⟩
    | [_], _, _ => exact ⟨_, rfl⟩
    | [_, _], [], _ => exact ⟨_, rfl⟩
    | [_, _], [_], _ => exact ⟨_, rfl⟩
    | [_, _], [_, _], _ => exact ⟨_, rfl⟩
    | [_, _], _ :: _ :: _ :: _, h => simp at h; omega
    | _ :: _ :: _ :: _, _, _ => exact ⟨_, rfl⟩
  · intro h
    match ins, outs, h with
    | [], _, _ => exact ⟨_, rfl⟩
    | [_], _, _ => exact ⟨_, rfl⟩
    | [_, _], [], _ => exact ⟨_, rfl⟩
    | [_, _], _ :: _, h => simp at h
    | _ :: _ :: _ :: _, _, _ => exact ⟨_, rfl⟩

/-- **C37** Swap. -/
theorem C37_swap {outs : List VarId} (h : outs.length % 2 ≠ 0) (m : Mgr α) : ∃ msg, swap outs m = .throw msg m := by
  unfold swap; rw [if_pos h]; exact ⟨_, rfl⟩

end

/-! ## C49 -/

section
variable {α : Type} [Arith α] {S : VarId → Prop} {m : Mgr α} {q rhs q1 q2 q3 : VarId}

/-- **C49** ssprk3: after a call with tag `k` the only variable that existed before and has other contents is output
`k + 1`; outputs that did not exist now do (as zeros); with any other tag nothing else happens. -/
theorem C49_ssprk3 (V : RKVars S q rhs q1 q2 q3) (h : m.Good S) (hL : m.Laid) {t : α} (ht : m.dt = some t)
    (h0 : m.contents q ≠ none) (hr : m.contents rhs ≠ none) (os : List VarId) (tag : Int) :
    ∃ m', ssprk3 true [q, rhs] (q1 :: q2 :: q3 :: os) tag m = .ok () m' ∧ m'.Good S ∧ m'.Laid ∧ m.Extends m' ∧
      (∀ id, id ∉ [q1, q2, q3] → m'.contents id = m.contents id) ∧
      ∀ (i : Nat) o, [q1, q2, q3][i]? = some o → tag ≠ i →
        m'.contents o = some ((m.contents o).getD (Mgr.fresh (Arith.lit 0) m.grid.rng o)) := by
  obtain ⟨c0, e0⟩ := Option.ne_none_iff_exists'.1 h0
  obtain ⟨r, er⟩ := Option.ne_none_iff_exists'.1 hr
  have nd := V.nodup
  simp only [List.nodup_cons, List.mem_cons, List.not_mem_nil, or_false, not_or] at nd
  have hreq : ∀ id, id ∉ [q1, q2, q3] → m.requested (Arith.lit 0) [q1, q2, q3] id = m.contents id := by
    intro id hid
    unfold Mgr.requested
    cases m.contents id with
    | some c => rfl
    | none => simp only; rw [if_neg hid]
  have hreq' : ∀ id, id ∈ [q1, q2, q3] → m.requested (Arith.lit 0) [q1, q2, q3] id =
      some ((m.contents id).getD (Mgr.fresh (Arith.lit 0) m.grid.rng id)) := by
    intro id hid
    unfold Mgr.requested
    cases m.contents id with
    | some c => rfl
    | none => simp only; rw [if_pos hid]; rfl
  by_cases t0 : tag = 0
  · subst t0
    obtain ⟨m', c, k1, k2, k3, k4, k5, _⟩ := ssprk3_stage0 V h hL ht e0 er os
    refine ⟨m', k1, k2, k3, k4, ?_, ?_⟩
    · intro id hid
      rw [k5, Function.update_of_ne (by rintro rfl; simp at hid), hreq id hid]
    · intro i o ho hi
      have hne : o ≠ q1 := by
        match i, ho with
        | 0, ho => simp at hi
        | 1, ho => simp at ho; subst ho; tauto
        | 2, ho => simp at ho; subst ho; tauto
      rw [k5, Function.update_of_ne hne, hreq' o (List.mem_of_getElem? ho)]
  · by_cases t1 : tag = 1
    · subst t1
      obtain ⟨m', c1, c, k1, k2, k3, k4, _, k5, _⟩ := ssprk3_stage1 V h hL ht e0 er os
      refine ⟨m', k1, k2, k3, k4, ?_, ?_⟩
      · intro id hid
        rw [k5, Function.update_of_ne (by rintro rfl; simp at hid), hreq id hid]
      · intro i o ho hi
        have hne : o ≠ q2 := by
          match i, ho with
          | 0, ho => simp at ho; subst ho; tauto
          | 1, ho => simp at hi
          | 2, ho => simp at ho; subst ho; tauto
        rw [k5, Function.update_of_ne hne, hreq' o (List.mem_of_getElem? ho)]
    · by_cases t2 : tag = 2
      · subst t2
        obtain ⟨m', c1, c, k1, k2, k3, k4, _, k5, _⟩ := ssprk3_stage2 V h hL ht e0 er os
        refine ⟨m', k1, k2, k3, k4, ?_, ?_⟩
        · intro id hid
          rw [k5, Function.update_of_ne (by rintro rfl; simp at hid), hreq id hid]
        · intro i o ho hi
          have hne : o ≠ q3 := by
            match i, ho with
            | 0, ho => simp at ho; subst ho; tauto
            | 1, ho => simp at ho; subst ho; tauto
            | 2, ho => simp at hi
          rw [k5, Function.update_of_ne hne, hreq' o (List.mem_of_getElem? ho)]
      · obtain ⟨m', k1, k2, k3, k4, k5⟩ := ssprk3_other V h hL ht e0 er true os t0 t1 t2
        refine ⟨m', k1, k2, k3, k4, ?_, ?_⟩
        · intro id hid; rw [k5, hreq id hid]
        · intro i o ho _; rw [k5, hreq' o (List.mem_of_getElem? ho)]

/-- **C49** rk1: only `q_1` is written, with the Euler step of `q_0`; with another tag nothing is. -/
theorem C49_rk1 (k : ∀ id ∈ [q, rhs, q1], S id) (nq : q ≠ q1) (nr : rhs ≠ q1)
    (hcomps : rhs.comps = q.comps ∧ q1.comps = q.comps) (hbasis : rhs.basis = q.basis ∧ q1.basis = q.basis)
    (h : m.Good S) (hL : m.Laid) {t : α} (ht : m.dt = some t) {u r : Cell → α}
    (h0 : m.Stores q u) (hr : m.Stores rhs r) (os : List VarId) (tag : Int) :
    ∃ m', rk1 [q, rhs] (q1 :: os) tag m = .ok () m' ∧ m'.Good S ∧ m'.Laid ∧ m.Extends m' ∧
      (∀ id, id ≠ q1 → m'.contents id = m.contents id) ∧
      (tag = 0 → m'.Stores q1 (fun x => u x + t * r x)) ∧
      (tag ≠ 0 → m'.contents q1 = some ((m.contents q1).getD (Mgr.fresh (Arith.lit 0) m.grid.rng q1))) := by
  obtain ⟨c0, e0, v0⟩ := h0
  obtain ⟨cr, er, vr⟩ := hr
  have hreq : ∀ id, id ≠ q1 → m.requested (Arith.lit 0) [q1] id = m.contents id := by
    intro id hid
    unfold Mgr.requested
    cases m.contents id with
    | some c => rfl
    | none => simp [hid]
  obtain ⟨s1, s2⟩ := rk1_stage0 k nq nr hcomps hbasis h hL ht e0 er os
  by_cases htag : tag = 0
  · subst htag
    obtain ⟨m', c, k1, k2, k3, k4, k5, k6⟩ := s1
    refine ⟨m', k1, k2, k3, k4, ?_, fun _ => ?_, fun hne => absurd rfl hne⟩
    · intro id hid; rw [k5, Function.update_of_ne hid, hreq id hid]
    · refine ⟨c, by rw [k5, Function.update_self], ?_⟩
      intro x hx
      have hb : m'.arrayBox q1 = m.arrayBox q := by unfold Mgr.arrayBox; rw [k4.grid, hcomps.2, hbasis.2]
      have hb' : m.arrayBox rhs = m.arrayBox q := by unfold Mgr.arrayBox; rw [hcomps.1, hbasis.1]
      rw [hb] at hx
      exact k6 x _ _ (v0 x hx) (vr x (by rw [hb']; exact hx))
  · obtain ⟨m', k1, k2, k3, k4, k5⟩ := s2 tag htag
    refine ⟨m', k1, k2, k3, k4, fun id hid => by rw [k5, hreq id hid], fun e => absurd e htag, fun _ => ?_⟩
    rw [k5]
    unfold Mgr.requested
    cases m.contents q1 <;> simp

/-! ## C47 -/

/-- One call of ssprk3 in terms of fields. -/
theorem ssprk3_fields (V : RKVars S q rhs q1 q2 q3) (h : m.Good S) (hL : m.Laid) {t : α} (ht : m.dt = some t)
    {u r : Cell → α} (h0 : m.Stores q u) (hr : m.Stores rhs r) (os : List VarId) :
    (∃ m', ssprk3 true [q, rhs] (q1 :: q2 :: q3 :: os) 0 m = .ok () m' ∧ m'.Good S ∧ m'.Laid ∧ m.Extends m' ∧
      (∀ id c, id ≠ q1 → m.contents id = some c → m'.contents id = some c) ∧
      m'.Stores q1 (fun x => u x + t * r x)) ∧
    (∀ u1, m.Stores q1 u1 → ∃ m', ssprk3 true [q, rhs] (q1 :: q2 :: q3 :: os) 1 m = .ok () m' ∧ m'.Good S ∧ m'.Laid ∧ m.Extends m' ∧
      (∀ id c, id ≠ q2 → m.contents id = some c → m'.contents id = some c) ∧
      m'.Stores q2 (fun x => Arith.lit (3 / 4) * u x + Arith.lit (1 / 4) * u1 x + Arith.lit (1 / 4) * t * r x)) ∧
    (∀ u2, m.Stores q2 u2 → ∃ m', ssprk3 true [q, rhs] (q1 :: q2 :: q3 :: os) 2 m = .ok () m' ∧ m'.Good S ∧ m'.Laid ∧ m.Extends m' ∧
      (∀ id c, id ≠ q3 → m.contents id = some c → m'.contents id = some c) ∧
      m'.Stores q3 (fun x => (u x + Arith.lit 2 * (u2 x + t * r x)) / Arith.lit 3)) := by
  obtain ⟨c0, e0, v0⟩ := h0
  obtain ⟨cr, er, vr⟩ := hr
  have hbox : ∀ {m' : Mgr α} {id : VarId}, m.Extends m' → id ∈ [q, rhs, q1, q2, q3] → m'.arrayBox id = m.arrayBox q := by
    intro m' id hx hid
    unfold Mgr.arrayBox; rw [hx.grid, V.comps id hid, V.basis id hid]
  refine ⟨?_, ?_, ?_⟩
  · obtain ⟨m', c, k1, k2, k3, k4, k5, k6⟩ := ssprk3_stage0 V h hL ht e0 er os
    refine ⟨m', k1, k2, k3, k4, ?_, c, by rw [k5, Function.update_self], ?_⟩
    · intro id d hne hd; rw [k5, Function.update_of_ne hne, Mgr.requested_some _ hd]
    · intro x hx
      rw [hbox k4 (by simp)] at hx
      exact k6 x _ _ (v0 x hx) (vr x (by rw [hbox (.refl m) (by simp)]; exact hx))
  · rintro u1 ⟨c1, e1, v1⟩
    obtain ⟨m', c1', c, k1, k2, k3, k4, k0, k5, k6⟩ := ssprk3_stage1 V h hL ht e0 er os
    rw [Mgr.requested_some _ e1] at k0; cases k0
    refine ⟨m', k1, k2, k3, k4, ?_, c, by rw [k5, Function.update_self], ?_⟩
    · intro id d hne hd; rw [k5, Function.update_of_ne hne, Mgr.requested_some _ hd]
    · intro x hx
      rw [hbox k4 (by simp)] at hx
      exact k6 x _ _ _ (v0 x hx) (v1 x (by rw [hbox (.refl m) (by simp)]; exact hx))
        (vr x (by rw [hbox (.refl m) (by simp)]; exact hx))
  · rintro u2 ⟨c2, e2, v2⟩
    obtain ⟨m', c2', c, k1, k2, k3, k4, k0, k5, k6⟩ := ssprk3_stage2 V h hL ht e0 er os
    rw [Mgr.requested_some _ e2] at k0; cases k0
    refine ⟨m', k1, k2, k3, k4, ?_, c, by rw [k5, Function.update_self], ?_⟩
    · intro id d hne hd; rw [k5, Function.update_of_ne hne, Mgr.requested_some _ hd]
    · intro x hx
      rw [hbox k4 (by simp)] at hx
      exact k6 x _ _ _ (v0 x hx) (v2 x (by rw [hbox (.refl m) (by simp)]; exact hx))
        (vr x (by rw [hbox (.refl m) (by simp)]; exact hx))

end

/-- Code that computes `L` of a stage input into `rhs` and does nothing else. -/
def Computes {α : Type} (S : VarId → Prop) (rhs : VarId) (run : VarId → SM (Mgr α) Unit) (L : (Cell → α) → Cell → α) (s : VarId) : Prop :=
  ∀ (m : Mgr α) u, m.Good S → m.Laid → m.Stores s u → ∃ m', run s m = .ok () m' ∧ m'.Good S ∧ m'.Laid ∧ m.Extends m' ∧
    m'.Stores rhs (L u) ∧ ∀ id, id ≠ rhs → m'.contents id = m.contents id

/-- One step of the integrator: before each stage the right-hand side is computed from the stage input. -/
noncomputable def rkStep {α : Type} [Arith α] (run : VarId → SM (Mgr α) Unit) (q rhs q1 q2 q3 : VarId) : SM (Mgr α) Unit := do
  run q
  ssprk3 true [q, rhs] [q1, q2, q3] 0
  run q1
  ssprk3 true [q, rhs] [q1, q2, q3] 1
  run q2
  ssprk3 true [q, rhs] [q1, q2, q3] 2

section
variable {S : VarId → Prop} {m : Mgr ℝ} {q rhs q1 q2 q3 : VarId}

theorem Stores.mono {m m' : Mgr ℝ} {id : VarId} {u : Cell → ℝ} (h : m.Stores id u) (hx : m.Extends m')
    (hc : m'.contents id = m.contents id) : m'.Stores id u := by
  obtain ⟨c, h1, h2⟩ := h
  refine ⟨c, hc.trans h1, fun x hx' => h2 x ?_⟩
  unfold Mgr.arrayBox at hx' ⊢
  rw [hx.grid] at hx'; exact hx'

/-- **C47** A step is the Shu-Osher scheme: for any right-hand side `L`, however it is computed, the three stages hold
`q1 = q0 + dt L(q0)`, `q2 = 3/4 q0 + 1/4 q1 + 1/4 dt L(q1)`, `q3 = 1/3 q0 + 2/3 q2 + 2/3 dt L(q2)` in every element, and
`q0` is unchanged. -/
theorem C47_shu_osher (V : RKVars S q rhs q1 q2 q3) (h : m.Good S) (hL : m.Laid) {t : ℝ} (ht : m.dt = some t)
    {run : VarId → SM (Mgr ℝ) Unit} {L : (Cell → ℝ) → Cell → ℝ}
    (hrun : ∀ s ∈ [q, q1, q2], Computes S rhs run L s) {u0 : Cell → ℝ} (h0 : m.Stores q u0) :
    ∃ m' u1 u2 u3, rkStep run q rhs q1 q2 q3 m = .ok () m' ∧ m'.Good S ∧ m'.Laid ∧ m.Extends m' ∧
      m'.Stores q u0 ∧ m'.Stores q1 u1 ∧ m'.Stores q2 u2 ∧ m'.Stores q3 u3 ∧
      (∀ x, u1 x = u0 x + t * L u0 x) ∧
      (∀ x, u2 x = 3 / 4 * u0 x + 1 / 4 * u1 x + 1 / 4 * t * L u1 x) ∧
      (∀ x, u3 x = 1 / 3 * u0 x + 2 / 3 * u2 x + 2 / 3 * t * L u2 x) := by
  have nd := V.nodup
  simp only [List.nodup_cons, List.mem_cons, List.not_mem_nil, or_false, not_or] at nd
  obtain ⟨m1, a1, a2, a3, a4, a5, a6⟩ := hrun q (by simp) m u0 h hL h0
  have s1 : m1.Stores q u0 := Stores.mono h0 a4 (a6 q (by tauto))
  obtain ⟨m2, b1, b2, b3, b4, b5, b6⟩ := (ssprk3_fields V a2 a3 (a4.dt.trans ht) s1 a5 []).1
  have keep : ∀ {m m' : Mgr ℝ} {id o : VarId} {u : Cell → ℝ}, m.Stores id u → m.Extends m' →
      (∀ id c, id ≠ o → m.contents id = some c → m'.contents id = some c) → id ≠ o → m'.Stores id u := by
    intro m m' id o u hs hx hc hne
    obtain ⟨c, e, _⟩ := hs
    exact Stores.mono ⟨c, e, by assumption⟩ hx ((hc id c hne e).trans e.symm)
  have s2 : m2.Stores q u0 := keep s1 b4 b5 (by tauto)
  obtain ⟨m3, c1, c2, c3, c4, c5, c6⟩ := hrun q1 (by simp) m2 _ b2 b3 b6
  have s3 : m3.Stores q u0 := Stores.mono s2 c4 (c6 q (by tauto))
  have p3 := Stores.mono b6 c4 (c6 q1 (by tauto))
  have ht3 : m3.dt = some t := c4.dt.trans (b4.dt.trans (a4.dt.trans ht))
  obtain ⟨m4, d1, d2, d3, d4, d5, d6⟩ := (ssprk3_fields V c2 c3 ht3 s3 c5 []).2.1 _ p3
  have s4 : m4.Stores q u0 := keep s3 d4 d5 (by tauto)
  have p4 := keep p3 d4 d5 (by tauto)
  obtain ⟨m5, e1, e2, e3, e4, e5, e6⟩ := hrun q2 (by simp) m4 _ d2 d3 d6
  have s5 : m5.Stores q u0 := Stores.mono s4 e4 (e6 q (by tauto))
  have p5 := Stores.mono p4 e4 (e6 q1 (by tauto))
  have r5 := Stores.mono d6 e4 (e6 q2 (by tauto))
  obtain ⟨m6, f1, f2, f3, f4, f5, f6⟩ := (ssprk3_fields V e2 e3 (e4.dt.trans (d4.dt.trans ht3)) s5 e5 []).2.2 _ r5
  refine ⟨m6, _, _, _, ?_, f2, f3, a4.trans (b4.trans (c4.trans (d4.trans (e4.trans f4)))), keep s5 f4 f5 (by tauto),
    keep p5 f4 f5 (by tauto), keep r5 f4 f5 (by tauto), f6, fun x => rfl, fun x => ?_, fun x => ?_⟩
  · unfold rkStep
    rw [SM.bind_ok a1, SM.bind_ok b1, SM.bind_ok c1, SM.bind_ok d1, SM.bind_ok e1]; exact f1
  · simp only [real_lit]; push_cast; ring
  · simp only [real_lit]; push_cast; ring

/-- **C47** On the linear problem `q' = a q` one step multiplies by `1 + z + z²/2 + z³/6`, `z = a dt`. -/
theorem C47_amplification (V : RKVars S q rhs q1 q2 q3) (h : m.Good S) (hL : m.Laid) {t : ℝ} (ht : m.dt = some t) (a : ℝ)
    {run : VarId → SM (Mgr ℝ) Unit} (hrun : ∀ s ∈ [q, q1, q2], Computes S rhs run (fun u x => a * u x) s)
    {u0 : Cell → ℝ} (h0 : m.Stores q u0) :
    ∃ m', rkStep run q rhs q1 q2 q3 m = .ok () m' ∧
      m'.Stores q3 (fun x => (1 + a * t + (a * t) ^ 2 / 2 + (a * t) ^ 3 / 6) * u0 x) := by
  obtain ⟨m', u1, u2, u3, k1, _, _, _, _, _, _, k8, e1, e2, e3⟩ := C47_shu_osher V h hL ht hrun h0
  refine ⟨m', k1, ?_⟩
  have : u3 = fun x => (1 + a * t + (a * t) ^ 2 / 2 + (a * t) ^ 3 / 6) * u0 x := by
    funext x
    rw [e3, e2, e1]; ring
  rw [← this]; exact k8

/-! ## C48 -/

/-- **C48** Strong stability: any convex set of fields that forward Euler steps keep is kept by a full step. -/
theorem C48_convex (V : RKVars S q rhs q1 q2 q3) (h : m.Good S) (hL : m.Laid) {t : ℝ} (ht : m.dt = some t)
    {run : VarId → SM (Mgr ℝ) Unit} {L : (Cell → ℝ) → Cell → ℝ} (hrun : ∀ s ∈ [q, q1, q2], Computes S rhs run L s)
    {K : Set (Cell → ℝ)} (hK : Convex ℝ K) (hE : ∀ u ∈ K, (fun x => u x + t * L u x) ∈ K)
    {u0 : Cell → ℝ} (hu : u0 ∈ K) (h0 : m.Stores q u0) :
    ∃ m' u3, rkStep run q rhs q1 q2 q3 m = .ok () m' ∧ m'.Stores q3 u3 ∧ u3 ∈ K := by
  obtain ⟨m', u1, u2, u3, k1, _, _, _, _, _, _, k8, e1, e2, e3⟩ := C47_shu_osher V h hL ht hrun h0
  refine ⟨m', u3, k1, k8, ?_⟩
  have m1 : u1 ∈ K := by
    have := hE u0 hu
    rwa [show (fun x => u0 x + t * L u0 x) = u1 from funext fun x => (e1 x).symm] at this
  have m2 : u2 ∈ K := by
    have := hK hu (hE u1 m1) (a := 3 / 4) (b := 1 / 4) (by norm_num) (by norm_num) (by norm_num)
    rwa [show (3 / 4 : ℝ) • u0 + (1 / 4 : ℝ) • (fun x => u1 x + t * L u1 x) = u2 from by
      funext x; rw [e2]; simp only [Pi.add_apply, Pi.smul_apply, smul_eq_mul]; ring] at this
  have := hK hu (hE u2 m2) (a := 1 / 3) (b := 2 / 3) (by norm_num) (by norm_num) (by norm_num)
  rwa [show (1 / 3 : ℝ) • u0 + (2 / 3 : ℝ) • (fun x => u2 x + t * L u2 x) = u3 from by
    funext x; rw [e3]; simp only [Pi.add_apply, Pi.smul_apply, smul_eq_mul]; ring] at this

/-- **C48** Bounds: if forward Euler keeps all values in `[lo, hi]`, so does a full step. -/
theorem C48_bounds (V : RKVars S q rhs q1 q2 q3) (h : m.Good S) (hL : m.Laid) {t : ℝ} (ht : m.dt = some t)
    {run : VarId → SM (Mgr ℝ) Unit} {L : (Cell → ℝ) → Cell → ℝ} (hrun : ∀ s ∈ [q, q1, q2], Computes S rhs run L s)
    {lo hi : ℝ} (hE : ∀ u, (∀ x, lo ≤ u x ∧ u x ≤ hi) → ∀ x, lo ≤ u x + t * L u x ∧ u x + t * L u x ≤ hi)
    {u0 : Cell → ℝ} (hu : ∀ x, lo ≤ u0 x ∧ u0 x ≤ hi) (h0 : m.Stores q u0) :
    ∃ m' u3, rkStep run q rhs q1 q2 q3 m = .ok () m' ∧ m'.Stores q3 u3 ∧ ∀ x, lo ≤ u3 x ∧ u3 x ≤ hi := by
  have hK : Convex ℝ {u : Cell → ℝ | ∀ x, lo ≤ u x ∧ u x ≤ hi} := by
    intro u hu v hv a b ha hb hab x
    have h1 := hu x
    have h2 := hv x
    simp only [Pi.add_apply, Pi.smul_apply, smul_eq_mul]
    constructor
    · calc lo = a * lo + b * lo := by rw [← add_mul, hab, one_mul]
        _ ≤ a * u x + b * v x := add_le_add (mul_le_mul_of_nonneg_left h1.1 ha) (mul_le_mul_of_nonneg_left h2.1 hb)
    · calc a * u x + b * v x ≤ a * hi + b * hi := add_le_add (mul_le_mul_of_nonneg_left h1.2 ha) (mul_le_mul_of_nonneg_left h2.2 hb)
        _ = hi := by rw [← add_mul, hab, one_mul]
  exact C48_convex V h hL ht hrun hK hE hu h0

/-- **C48** With a right-hand side that is zero the state is unchanged. -/
theorem C48_zero (V : RKVars S q rhs q1 q2 q3) (h : m.Good S) (hL : m.Laid) {t : ℝ} (ht : m.dt = some t)
    {run : VarId → SM (Mgr ℝ) Unit} (hrun : ∀ s ∈ [q, q1, q2], Computes S rhs run (fun _ _ => 0) s)
    {u0 : Cell → ℝ} (h0 : m.Stores q u0) :
    ∃ m', rkStep run q rhs q1 q2 q3 m = .ok () m' ∧ m'.Stores q3 u0 := by
  obtain ⟨m', u1, u2, u3, k1, _, _, _, _, _, _, k8, e1, e2, e3⟩ := C47_shu_osher V h hL ht hrun h0
  refine ⟨m', k1, ?_⟩
  have : u3 = u0 := by
    funext x; rw [e3, e2, e1]; ring
  rw [← this]; exact k8

end

/-! ## C56, ssprk3 -/

/-- **C56** The three loops of ssprk3: every interleaving is free of races and gives the sequential result. -/
theorem C56_ssprk3 {α : Type} [Arith α] {g : Int} {M D : Box} {q0 q1 q2 q3 rhs : Chunk α} (dt : α) (h0 : q0.Layout g M D)
    (hr : rhs.Layout g M D) (h1 : q1.Layout g M D) (h2 : q2.Layout g M D) (h3 : q3.Layout g M D) :
    (∃ m', Prog.runAll ((RK.points rhs).map (RK.iter0 dt)) (Mem.of [q0.arr.data, rhs.arr.data, q1.arr.data]) = .ok m' ∧
      ParallelSafe ((RK.points rhs).map (RK.iter0 dt)) (Mem.of [q0.arr.data, rhs.arr.data, q1.arr.data]) m') ∧
    (∃ m', Prog.runAll ((RK.points rhs).map (RK.iter1 dt)) (Mem.of [q0.arr.data, q1.arr.data, rhs.arr.data, q2.arr.data]) = .ok m' ∧
      ParallelSafe ((RK.points rhs).map (RK.iter1 dt)) (Mem.of [q0.arr.data, q1.arr.data, rhs.arr.data, q2.arr.data]) m') ∧
    (∃ m', Prog.runAll ((RK.points rhs).map (RK.iter2 dt)) (Mem.of [q0.arr.data, q2.arr.data, rhs.arr.data, q3.arr.data]) = .ok m' ∧
      ParallelSafe ((RK.points rhs).map (RK.iter2 dt)) (Mem.of [q0.arr.data, q2.arr.data, rhs.arr.data, q3.arr.data]) m') :=
  ⟨RK.parallel0 dt h0 hr h1, RK.parallel1 dt h0 h1 hr h2, RK.parallel2 dt h0 h2 hr h3⟩

/-! ## C68 -/

/-- **C68** is false: with buffers that do not have the assumed 64-byte alignment every stage is undefined, for every
manager and data. -/
theorem C68_false {α : Type} [Arith α] {S : VarId → Prop} {m : Mgr α} {q rhs q1 q2 q3 : VarId} (V : RKVars S q rhs q1 q2 q3)
    (h : m.Good S) (hL : m.Laid) {t : α} (ht : m.dt = some t) (h0 : m.contents q ≠ none) (hr : m.contents rhs ≠ none)
    (os : List VarId) {tag : Int} (htag : tag = 0 ∨ tag = 1 ∨ tag = 2) :
    ∃ w, ssprk3 false [q, rhs] (q1 :: q2 :: q3 :: os) tag m = .ub w := by
  obtain ⟨c0, e0⟩ := Option.ne_none_iff_exists'.1 h0
  obtain ⟨r, er⟩ := Option.ne_none_iff_exists'.1 hr
  exact ssprk3_misaligned V h hL ht e0 er os htag

/-- **C68**, what holds: with the assumed alignment every call is defined. Missing: other alignments. -/
theorem C68_aligned_partial {α : Type} [Arith α] {S : VarId → Prop} {m : Mgr α} {q rhs q1 q2 q3 : VarId} (V : RKVars S q rhs q1 q2 q3)
    (h : m.Good S) (hL : m.Laid) {t : α} (ht : m.dt = some t) (h0 : m.contents q ≠ none) (hr : m.contents rhs ≠ none)
    (os : List VarId) (tag : Int) :
    ∃ m', ssprk3 true [q, rhs] (q1 :: q2 :: q3 :: os) tag m = .ok () m' := by
  obtain ⟨m', h1, _⟩ := C49_ssprk3 V h hL ht h0 hr os tag
  exact ⟨m', h1⟩

/-! ## An instance of the hypotheses -/

/-- Five variables with two components. -/
def exId (n : String) : VarId := ⟨n, ["a", "b"], Basis.volumeAverage⟩
def exIds (id : VarId) : Prop := id ∈ [exId "q", exId "r", exId "q1", exId "q2", exId "q3"]

theorem exVars : RKVars exIds (exId "q") (exId "r") (exId "q1") (exId "q2") (exId "q3") := by
  refine ⟨fun id h => h, by decide, ?_, ?_⟩
  · intro id h; simp [exId] at h; rcases h with rfl | rfl | rfl | rfl | rfl <;> rfl
  · intro id h; simp [exId] at h; rcases h with rfl | rfl | rfl | rfl | rfl <;> rfl

theorem exConsistent : Mgr.Consistent exIds := by
  intro a b ha hb hn
  simp [exIds, exId] at ha hb
  rcases ha with rfl | rfl | rfl | rfl | rfl <;> rcases hb with rfl | rfl | rfl | rfl | rfl <;> first | rfl | (simp at hn)

/-- A manager on a 3 × 2 grid that stores any given data in `q` and `r`. -/
theorem exManager (u : VarId → Cell → ℝ) : ∃ m : Mgr ℝ, m.Good exIds ∧ m.Laid ∧ m.dt = some (1/10) ∧
    m.Stores (exId "q") (u (exId "q")) ∧ m.Stores (exId "r") (u (exId "r")) ∧ m.contents (exId "q1") = none := by
  obtain ⟨m, h1, h2, _, h4, _, h6, h7⟩ := Mgr.exists_manager exConsistent (fun id h => by
      simp [exIds, exId] at h; rcases h with rfl | rfl | rfl | rfl | rfl <;> simp [Basis.volumeAverage])
    (⟨Range.setup [(0,3),(0,2)], [0,0], [1,1], [1/3,1/2]⟩ : Rectilinear ℝ) (by decide) (by decide) (1/10) 0 u
    (ids := [exId "q", exId "r"]) (by intro id h; unfold exIds; simp at h ⊢; tauto) (by decide)
  exact ⟨m, h1, h2, h4, h6 _ (by simp), h6 _ (by simp), h7 _ (by decide)⟩

/-- Code that multiplies a variable by `a` into `r`. -/
noncomputable def exRun (a : ℝ) (s : VarId) : SM (Mgr ℝ) Unit := do
  let i ← inputVar s
  let o ← outputVar (exId "r")
  kernelLoop i o [i] (fun _ cs r =>
    match cs with
    | [c] => .ok { r with arr := { r.arr with data := c.arr.data.map (a * ·) } }
    | _ => .ub "unreachable")

theorem exRun_computes (a : ℝ) {s : VarId} (hs : exIds s) : Computes exIds (exId "r") (exRun a) (fun u x => a * u x) s := by
  rintro m u h hL ⟨c, e, v⟩
  obtain ⟨i, hi⟩ := exists_addr h e
  obtain ⟨o, m1, h1, g1, l1, x1, b1, c1⟩ := outputVar_requested h hL (exVars.known (exId "r") (by simp))
  have e1 : m1.contents s = some c := by rw [c1]; exact Mgr.requested_some _ e _
  obtain ⟨r, er⟩ : ∃ r, m1.contents (exId "r") = some r := by rw [c1]; exact Mgr.requested_mem _ (by simp)
  have y1 := exVars.layout l1 hs e1
  have y2 := exVars.layout l1 (by simp) er
  have sh : r.SameShape { r with arr := { r.arr with data := c.arr.data.map (a * ·) } } :=
    ⟨rfl, by simp only [List.length_map]; exact y1.size_eq y2⟩
  refine ⟨m1.store o { r with arr := { r.arr with data := c.arr.data.map (a * ·) } }, ?_, g1.store _ _, Mgr.Laid.store g1 l1 b1 er sh,
    x1.trans (Mgr.store_extends _ _ _), ⟨_, by rw [g1.store_contents b1, Function.update_self], ?_⟩, ?_⟩
  · unfold exRun
    rw [SM.bind_ok (inputVar_existing h hs hi), SM.bind_ok h1]
    exact kernelLoop_spec g1 (x1.addr _ _ hi) b1 (cs := [c]) (.cons ⟨s, x1.addr _ _ hi, e1⟩ .nil) er rfl
  · intro x hx
    have := v x (by
      unfold Mgr.arrayBox at hx ⊢
      rw [exVars.comps s hs, exVars.basis s hs, ← x1.grid]; exact hx)
    rw [(y2.sameShape sh).val_eq, List.getElem?_map, ← y1.val_eq, this]; rfl
  · intro id hne
    rw [g1.store_contents b1, Function.update_of_ne hne, c1]
    unfold Mgr.requested
    cases m.contents id <;> simp [hne]

-- C47: a step of `q' = -2 q` with `dt = 1/10` (`z = -1/5`), on a manager that only has `q` and `r`
example (u : Cell → ℝ) : ∃ m m' : Mgr ℝ, m.Stores (exId "q") u ∧
    rkStep (exRun (-2)) (exId "q") (exId "r") (exId "q1") (exId "q2") (exId "q3") m = .ok () m' ∧
    m'.Stores (exId "q3") (fun x => (1 - 1/5 + 1/50 - 1/750) * u x) := by
  obtain ⟨m, h1, h2, h3, h4, h5, _⟩ := exManager (fun _ => u)
  obtain ⟨m', k1, k2⟩ := C47_amplification exVars h1 h2 h3 (-2) (fun s hs => exRun_computes (-2) (by
    unfold exIds; simp at hs ⊢; tauto)) h4
  refine ⟨m, m', h4, k1, ?_⟩
  have : (fun x => (1 - 1/5 + 1/50 - 1/750) * u x) = fun x => (1 + -2 * (1 / 10) + (-2 * (1 / 10)) ^ 2 / 2 + (-2 * (1 / 10)) ^ 3 / 6) * u x := by
    funext x; ring
  rw [this]; exact k2

-- C48: forward Euler for `q' = -2 q` with `dt = 1/10` keeps values in [-1, 3]
example (u : Cell → ℝ) (hu : ∀ x, -1 ≤ u x ∧ u x ≤ 3) : ∃ m m' : Mgr ℝ, m.Stores (exId "q") u ∧ ∃ u3,
    rkStep (exRun (-2)) (exId "q") (exId "r") (exId "q1") (exId "q2") (exId "q3") m = .ok () m' ∧
    m'.Stores (exId "q3") u3 ∧ ∀ x, -1 ≤ u3 x ∧ u3 x ≤ 3 := by
  obtain ⟨m, h1, h2, h3, h4, h5, _⟩ := exManager (fun _ => u)
  obtain ⟨m', u3, k⟩ := C48_bounds exVars h1 h2 h3 (fun s hs => exRun_computes (-2) (by
    unfold exIds; simp at hs ⊢; tauto)) (lo := -1) (hi := 3) (fun v hv x => by
      have := hv x
      constructor <;> linarith) hu h4
  exact ⟨m, m', h4, u3, k⟩

-- C49, C68: the hypotheses hold of this manager
example : ∃ m : Mgr ℝ, (∀ tag, ∃ m', ssprk3 true [exId "q", exId "r"] [exId "q1", exId "q2", exId "q3"] tag m = .ok () m') ∧
    ∃ w, ssprk3 false [exId "q", exId "r"] [exId "q1", exId "q2", exId "q3"] 0 m = .ub w := by
  obtain ⟨m, h1, h2, h3, ⟨c, e, _⟩, ⟨d, f, _⟩, _⟩ := exManager (fun _ _ => 7)
  exact ⟨m, fun tag => C68_aligned_partial exVars h1 h2 h3 (by rw [e]; simp) (by rw [f]; simp) [] tag,
    C68_false exVars h1 h2 h3 (by rw [e]; simp) (by rw [f]; simp) [] (.inl rfl)⟩

-- C49, rk1
example : ∃ m m' : Mgr ℝ, rk1 [exId "q", exId "r"] [exId "q1"] 0 m = .ok () m' ∧ m'.Stores (exId "q1") (fun _ => 7 + 1/10 * 7) := by
  obtain ⟨m, h1, h2, h3, h4, h5, _⟩ := exManager (fun _ _ => 7)
  obtain ⟨m', k1, _, _, _, _, k6, _⟩ := C49_rk1 (q := exId "q") (rhs := exId "r") (q1 := exId "q1") (by intro id h; unfold exIds; simp at h ⊢; tauto) (by decide) (by decide)
    ⟨rfl, rfl⟩ ⟨rfl, rfl⟩ h1 h2 h3 h4 h5 [] 0
  exact ⟨m, m', k1, k6 rfl⟩

-- C56: chunks of one layout exist
example : ∃ q0 : Chunk ℝ, q0.Layout 2 [(0, 3), (0, 2)] [(0, 1), (0, 2)] := by
  obtain ⟨c, _, h, _⟩ := resize_layout (0 : ℝ) Chunk.default (mesh := Range.setup [(0, 3), (0, 2)]) (dataR := Range.setup [(0, 1), (0, 2)])
    (g := 2) (by decide) (by decide) (by decide)
  exact ⟨c, h⟩

end QK.Props
