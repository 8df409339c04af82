import Verif.Proofs.Stable
import Verif.Proofs.Lifetime
import Verif.Props.Client
import Verif.Spec.Memory
/-
C128: the memory of a program is bounded by the variables in its text, however many steps it makes; steps allocate nothing once their variables exist.
-/
namespace QK.Props
open QK Spec Solve Mgr

/-- The map is in order, its keys are in `S`, and its addresses are those of `new`. -/
structure Tidy {α : Type} (S : VarId → Prop) (m : Mgr α) : Prop where
  owned : m.Owned
  keys : ∀ p ∈ m.vars, S p.1
  sorted : m.vars.Pairwise (fun p q => p.1.name < q.1.name)

/-- The number of cells of a box, which may be empty. -/
theorem cells_length_le : ∀ {b : Box}, (∀ d ∈ b, d.1 ≤ d.2) → ((cells b).length : Int) = boxVolume b
  | [], _ => rfl
  | d :: ds, h => by
    have ih := cells_length_le (b := ds) fun e he => h e (List.mem_cons_of_mem _ he)
    have hd := h d List.mem_cons_self
    rw [boxVolume_cons, ← ih]
    have : (cells (d :: ds)).length = (d.2 - d.1).toNat * (cells ds).length := by
      conv_lhs => unfold cells
      simp [List.length_flatMap, length_interval]
    rw [this]
    push_cast
    rw [Int.toNat_of_nonneg (by omega)]

section
variable {α : Type} {S : VarId → Prop} {m : Mgr α}

theorem tidy_stable : Stable (Tidy (α := α) S) := fun _ _ _ hv hl _ _ h => ⟨h.owned.of_eq hv hl, by rw [hv]; exact h.keys, by rw [hv]; exact h.sorted⟩

theorem tidy_make (g : Rectilinear α) : Tidy S (Mgr.make g) := ⟨List.Perm.refl _, (fun _ hp => (List.not_mem_nil hp).elim), List.Pairwise.nil⟩

variable [Arith α]

theorem tidy_add (hc : Consistent S) {id : VarId} (hid : S id) : Keeps (Tidy (α := α) S) (addVar id) := by
  intro m hm
  have hf := find_spec hc hid hm.keys hm.sorted
  have ho := Solve.addVar_keeps (α := α) id m hm.owned
  unfold addVar at *
  rw [SM.get_bind] at *
  cases ha : m.vars.find? (fun p => decide (p.1 = id)) with
  | some p =>
    rw [ha] at hf
    rw [SM.lift_bind hf] at *
    exact Keeps.raise (β := Unit) _ m hm
  | none =>
    rw [ha] at hf
    rw [SM.lift_bind hf] at *
    obtain ⟨pre, post, e1, e2, e3⟩ := insert_spec hc hid m.heap.length hm.keys hm.sorted (fun p hp e => by simpa [e] using List.find?_eq_none.1 ha p hp)
    have keys : ∀ p ∈ pre ++ (id, m.heap.length) :: post, S p.1 := by
      intro p hp
      rw [List.mem_append, List.mem_cons] at hp
      rcases hp with hp | rfl | hp
      · exact hm.keys p (by rw [e1]; exact List.mem_append_left _ hp)
      · exact hid
      · exact hm.keys p (by rw [e1]; exact List.mem_append_right _ hp)
    simp only [Option.map_none] at *
    cases hv : (Var.make (Arith.lit 0) id.name id.comps id.basis m.grid.rng 2 : Res (Var α)) with
    | ok v =>
      rw [hv] at ho
      rw [SM.lift_bind rfl, SM.lift_bind e2] at *
      refine ⟨fun b s e => ?_, fun w s e => (by cases e)⟩
      have := ho.1 b s e
      cases e
      exact ⟨this, keys, e3⟩
    | throw w =>
      refine ⟨fun b s e => (by cases e), fun w s e => ?_⟩
      cases e
      exact hm
    | ub w => exact ⟨fun b s e => (by cases e), fun w s e => (by cases e)⟩
    | diverge => exact ⟨fun b s e => (by cases e), fun w s e => (by cases e)⟩

theorem tidy_output (hc : Consistent S) {id : VarId} (hid : S id) : Keeps (Tidy (α := α) S) (outputVar id) := by
  unfold outputVar
  refine Keeps.get.bind fun m => (Keeps.lift _).bind fun o => ?_
  cases o with
  | some a => exact Keeps.pure _
  | none => exact (tidy_add hc hid).bind fun _ => Solve.inputVar_stable id

theorem tidy_dt (t : α) : Keeps (Tidy S) (Call.setDt t).run := by
  unfold Call.run
  refine Keeps.modifyRes fun m m' hm h => ?_
  cases h
  exact ⟨hm.owned.of_eq rfl rfl, hm.keys, hm.sorted⟩

theorem tidy_time (t : α) : Keeps (Tidy S) (Call.setTime t).run := by
  unfold Call.run
  refine Keeps.modifyRes fun m m' hm h => ?_
  cases h
  exact ⟨hm.owned.of_eq rfl rfl, hm.keys, hm.sorted⟩

omit [Arith α] in
theorem tidy_keys (h : Tidy S m) : (m.vars.map Prod.fst).Nodup := by
  have := h.sorted
  rw [List.Nodup, List.pairwise_map]
  exact this.imp fun {a b} hab e => by rw [e] at hab; exact lt_irrefl _ hab

omit [Arith α] in
theorem tidy_objects (h : Tidy S m) : m.heap.length = m.vars.length := by
  have := h.owned.length_eq
  simpa using this.symm

omit [Arith α] in
/-- At most one object for each name. -/
theorem tidy_bound {ids : List VarId} (h : Tidy (· ∈ ids) m) : m.heap.length ≤ ids.dedup.length := by
  rw [tidy_objects h, ← List.length_map (f := Prod.fst)]
  refine ((tidy_keys h).subperm ?_).length_le
  intro x hx
  obtain ⟨p, hp, rfl⟩ := List.mem_map.1 hx
  exact List.mem_dedup.2 (h.keys p hp)

/-- **C128** Any program made of calls of the library, whether or not they fit together, with any loops and branches, on a new manager of any grid: however it ends, it has created at
most one object for each variable that it names as an output. The number of rounds of its loops does not matter. (Solvers of the program itself must do likewise.) -/
theorem C128_bound (g : Rectilinear α) (p : Client α) (hc : Consistent (· ∈ p.writes)) (own : ∀ f ∈ p.owns, Keeps (Tidy (· ∈ p.writes)) f.1) :
    EndsWith (fun m => m.heap.length ≤ p.writes.dedup.length) (p.run (Mgr.make g)) := by
  have h := client_stable tidy_stable tidy_dt tidy_time p own (fun id hid => tidy_output hc hid) (Mgr.make g) (tidy_make g)
  exact ⟨fun b s e => tidy_bound (h.1 b s e), fun w s e => tidy_bound (h.2 w s e)⟩

omit [Arith α] in
theorem values_eq {M : Box} (h : Tidy S m) (hs : ∀ p ∈ m.vars, ∃ v, m.heap[p.2]? = some v ∧ (v.chunks.data.map fun c => c.arr.data.length).sum = p.1.values M) :
    m.values = (m.vars.map fun p => p.1.values M).sum := by
  have e : (m.vars.map fun p => p.1.values M) = (m.vars.map Prod.snd).map fun a => ((m.heap[a]?).map fun v => (v.chunks.data.map fun c => c.arr.data.length).sum).getD 0 := by
    rw [List.map_map]
    refine List.map_congr_left fun p hp => ?_
    obtain ⟨v, h1, h2⟩ := hs p hp
    simp only [Function.comp_apply, h1, Option.map_some, Option.getD_some]
    exact h2.symm
  rw [e, (h.owned.map _).sum_eq]
  unfold Mgr.values
  congr 1
  refine List.ext_getElem (by simp) fun i h1 h2 => ?_
  simp at h1
  simp [h1]

omit [Arith α] in
/-- The numbers a manager stores, from the shapes of its variables. -/
theorem values_laid (hG : m.Good S) (hL : m.Laid) (hO : m.Owned) : m.values = (m.vars.map fun p => p.1.values m.grid.rng.dims).sum := by
  refine values_eq ⟨hO, hG.keys, hG.sorted⟩ fun p hp => ?_
  obtain ⟨v, c, h1, -, -, -, -, -, h7⟩ := hG.stored p hp
  refine ⟨v, h1, ?_⟩
  rw [h7]
  have hc : m.contents p.1 = some c := by
    unfold Mgr.contents
    rw [hG.addr_iff.2 hp]
    simp [h1, h7]
  have L := hL _ _ hc
  have hp0 := hG.points p.1 (hG.keys p hp)
  have hne : grow 2 m.grid.rng.dims ++ [(0, p.1.basis.points), (0, (p.1.comps.length : Int))] ≠ [] := by simp
  have e := L.arr_size
  rw [L.arr_range, Range.volume_setup hne, ← cells_length_le (fun d hd => ?_)] at e
  · simp only [List.map_cons, List.map_nil, List.sum_cons, List.sum_nil, Nat.add_zero]
    unfold VarId.values
    exact_mod_cast e
  · rw [List.mem_append] at hd
    rcases hd with hd | hd
    · exact le_of_lt (pos_grow (by decide) hG.mesh_pos d hd)
    · simp only [List.mem_cons, List.not_mem_nil, or_false] at hd
      rcases hd with rfl | rfl
      · exact hp0
      · simp

/-- **C128** An accepted program stores at most one array for each variable that it names as an output, with two layers of ghost cells; no number of steps makes it store more. -/
theorem C128_memory {p : Client α} {k' : Known} {g : Rectilinear α} (hS : Consistent (· ∈ p.writes)) (hp : ∀ id ∈ p.writes, 0 ≤ id.basis.points) (hn : g.rng.dims ≠ []) (hM : Pos g.rng.dims)
    (hdx : g.dxs.length = g.rng.dims.length) (hk : Known.check p.writes g.rng.dims ⟨[], false⟩ p = some k')
    (own : ∀ f ∈ p.owns, Behaves (· ∈ p.writes) g f ∧ Keeps (Tidy (· ∈ p.writes)) f.1) :
    ∃ m', p.run (Mgr.make g) = .ok () m' ∧ m'.values = (m'.vars.map fun p => p.1.values g.rng.dims).sum ∧ m'.values ≤ (p.writes.dedup.map (VarId.values g.rng.dims)).sum := by
  obtain ⟨m', a1, a2, a3, a4, -, -⟩ := C123_start hS hp hn hM hdx hk (fun f hf => (own f hf).1)
  have T := (client_stable tidy_stable tidy_dt tidy_time p (fun f hf => (own f hf).2) (fun id hid => tidy_output hS hid) (Mgr.make g) (tidy_make g)).1 _ _ a1
  have V := values_laid a2 a3 T.owned
  rw [a4] at V
  refine ⟨m', a1, V, ?_⟩
  rw [V]
  have hsub : (m'.vars.map Prod.fst).Subperm p.writes.dedup := (tidy_keys T).subperm fun x hx => by
    obtain ⟨q, hq, rfl⟩ := List.mem_map.1 hx
    exact List.mem_dedup.2 (T.keys q hq)
  obtain ⟨l, hl, hs⟩ := hsub
  rw [show (m'.vars.map fun p => p.1.values g.rng.dims) = (m'.vars.map Prod.fst).map (VarId.values g.rng.dims) by rw [List.map_map]; rfl, ← (hl.map _).sum_eq]
  exact (hs.map _).sum_le_sum fun _ _ => Nat.zero_le _

omit [Arith α] in
theorem steady_stable : Stable (m.Steady) := fun _ _ _ hv hl _ _ h => ⟨hv.trans h.vars, hl.trans h.objects⟩

theorem steady_output (h : m.Good S) {id : VarId} (hid : S id) (he : m.contents id ≠ none) : Keeps m.Steady (outputVar id) := by
  obtain ⟨c, hc⟩ := Option.ne_none_iff_exists'.1 he
  obtain ⟨a, ha⟩ := exists_addr h hc
  intro m1 h1
  have : find m1.vars id = .ok (some a) := by rw [h1.vars, h.find_eq hid, ha]
  unfold outputVar
  rw [SM.get_bind, SM.lift_bind this]
  exact Keeps.pure a m1 h1

theorem steady_dt (t : α) : Keeps m.Steady (Call.setDt t).run := by
  unfold Call.run
  refine Keeps.modifyRes fun m m' hm h => ?_
  cases h
  exact ⟨hm.vars, hm.objects⟩

theorem steady_time (t : α) : Keeps m.Steady (Call.setTime t).run := by
  unfold Call.run
  refine Keeps.modifyRes fun m m' hm h => ?_
  cases h
  exact ⟨hm.vars, hm.objects⟩

/-- **C128** A program whose outputs all exist allocates nothing, whatever it does and however it ends: the same objects at the same addresses. -/
theorem C128_steady (h : m.Good S) {p : Client α} (hw : ∀ id ∈ p.writes, S id ∧ m.contents id ≠ none) (own : ∀ f ∈ p.owns, Keeps m.Steady f.1) : EndsWith m.Steady (p.run m) :=
  client_stable steady_stable steady_dt steady_time p own (fun id hid => steady_output h (hw id hid).1 (hw id hid).2) m ⟨rfl, rfl⟩

/-- **C128** The time steps of the shipped programs allocate nothing, for any number of steps, once their variables exist (as they do after the first one). -/
theorem C128_steps (h : m.Good S) (al : Bool) (t time : α) (n : Nat) :
    (∀ P : Plasma α, (∀ id ∈ P.e.ids ++ P.i.ids ++ P.f.ids, S id ∧ m.contents id ≠ none) → EndsWith m.Steady (Run.steps (P.step al t) n time m)) ∧
    (∀ P : Sod α, (∀ id ∈ P.v.ids, S id ∧ m.contents id ≠ none) → EndsWith m.Steady (Run.steps (P.step al t) n time m)) ∧
    (∀ P : Light α, (∀ id ∈ P.v.ids, S id ∧ m.contents id ≠ none) → EndsWith m.Steady (Run.steps (P.step al t) n time m)) ∧
    ((∀ id ∈ [AdvectGaussian.var, AdvectGaussian.partialVar, AdvectGaussian.newVar], S id ∧ m.contents id ≠ none) → EndsWith m.Steady (Run.steps (AdvectGaussian.step t) n time m)) :=
  ⟨fun P hP => Lifetime.steps_stable (Lifetime.plasma_stable steady_stable steady_time P (fun id hid => steady_output h (hP id hid).1 (hP id hid).2) al t) n time m ⟨rfl, rfl⟩,
    fun P hP => Lifetime.steps_stable (Lifetime.sod_stable steady_stable steady_time P (fun id hid => steady_output h (hP id hid).1 (hP id hid).2) al t) n time m ⟨rfl, rfl⟩,
    fun P hP => Lifetime.steps_stable (Lifetime.light_stable steady_stable steady_time P (fun id hid => steady_output h (hP id hid).1 (hP id hid).2) al t) n time m ⟨rfl, rfl⟩,
    fun hP => Lifetime.steps_stable (Lifetime.advect_stable steady_stable steady_time (fun id hid => steady_output h (hP id hid).1 (hP id hid).2) t) n time m ⟨rfl, rfl⟩⟩

theorem main_bound (g : Rectilinear α) {ids : List VarId} {ic : SM (Mgr α) Unit} {step : α → α → SM (Mgr α) α} (hi : Keeps (Tidy (· ∈ ids)) ic)
    (h : ∀ d t, Keeps (Tidy (· ∈ ids)) (step d t)) (canOpen : Nat → Bool) (names : List VarId) (timeDt : α) (numFrames numSteps : Nat) {k : Nat} (hk : ids.dedup.length ≤ k) :
    EndsWith (fun r : Run α => r.mgr.heap.length ≤ k) (Run.main ic canOpen names step timeDt numFrames numSteps ⟨Mgr.make g, []⟩) := by
  have H := Lifetime.main_stable tidy_dt tidy_time hi h canOpen names timeDt numFrames numSteps ⟨Mgr.make g, []⟩ (tidy_make g)
  exact ⟨fun b s e => (tidy_bound (H.1 b s e)).trans hk, fun w s e => (tidy_bound (H.2 w s e)).trans hk⟩

/-- **C128** The shipped programs hold at most 15 variables (plasma), 5 (Sod, wave, pulse) or 3 (advection), on any mesh, for any number of frames and steps, however they end. -/
theorem C128_programs (al : Bool) (canOpen : Nat → Bool) (nx ny nz : Int) (numFrames numSteps : Nat) (r : SRes (Run α) Unit) :
    (GemChallenge.run al canOpen nx numFrames numSteps = .ok r ∨ HarrisCurrentSheet.run al canOpen nx numFrames numSteps = .ok r ∨ TwoFluidBrioWu.run al canOpen nx numFrames numSteps = .ok r →
      EndsWith (fun r : Run α => r.mgr.heap.length ≤ 15) r) ∧
    (SodShockTube.run al canOpen nx ny numFrames numSteps = .ok r ∨ Wave1D.run al canOpen nx ny nz numFrames numSteps = .ok r ∨ GaussianPulse.run al canOpen nx numFrames numSteps = .ok r →
      EndsWith (fun r : Run α => r.mgr.heap.length ≤ 5) r) ∧
    (AdvectGaussian.run canOpen nx ny numFrames numSteps = .ok r → EndsWith (fun r : Run α => r.mgr.heap.length ≤ 3) r) := by
  have c1 : Consistent (· ∈ GemChallenge.electrons.ids ++ GemChallenge.ions.ids ++ GemChallenge.fields.ids) := by
    have : ∀ a ∈ GemChallenge.electrons.ids ++ GemChallenge.ions.ids ++ GemChallenge.fields.ids, ∀ b ∈ GemChallenge.electrons.ids ++ GemChallenge.ions.ids ++ GemChallenge.fields.ids, a.name = b.name → a = b := by decide
    exact fun a b ha hb => this a ha b hb
  have c2 : Consistent (· ∈ SodShockTube.fluid.ids) := by
    have : ∀ a ∈ SodShockTube.fluid.ids, ∀ b ∈ SodShockTube.fluid.ids, a.name = b.name → a = b := by decide
    exact fun a b ha hb => this a ha b hb
  have c3 : Consistent (· ∈ Wave1D.field.ids) := by
    have : ∀ a ∈ Wave1D.field.ids, ∀ b ∈ Wave1D.field.ids, a.name = b.name → a = b := by decide
    exact fun a b ha hb => this a ha b hb
  have c4 : Consistent (· ∈ [AdvectGaussian.var, AdvectGaussian.partialVar, AdvectGaussian.newVar]) := by
    have : ∀ a ∈ [AdvectGaussian.var, AdvectGaussian.partialVar, AdvectGaussian.newVar], ∀ b ∈ [AdvectGaussian.var, AdvectGaussian.partialVar, AdvectGaussian.newVar], a.name = b.name → a = b := by decide
    exact fun a b ha hb => this a ha b hb
  have hq : ∀ x ∈ [GemChallenge.electrons.q, GemChallenge.ions.q, GemChallenge.fields.q], x ∈ GemChallenge.electrons.ids ++ GemChallenge.ions.ids ++ GemChallenge.fields.ids := by decide
  refine ⟨?_, ?_, ?_⟩
  · rintro (h | h | h)
    · obtain ⟨g, _, h⟩ := Res.bind_eq_ok.1 h
      obtain ⟨_, _, h⟩ := Res.bind_eq_ok.1 h
      cases h
      exact main_bound g (Solve.gem_stable tidy_stable _ _ fun id hid => tidy_output c1 (hq id hid)) (fun d t => Lifetime.plasma_stable tidy_stable tidy_time _ (fun id hid => tidy_output c1 hid) al d t) _ _ _ _ _ (by decide)
    · obtain ⟨g, _, h⟩ := Res.bind_eq_ok.1 h
      obtain ⟨_, _, h⟩ := Res.bind_eq_ok.1 h
      cases h
      exact main_bound g (Solve.gem_stable tidy_stable _ _ fun id hid => tidy_output c1 (hq id hid)) (fun d t => Lifetime.plasma_stable tidy_stable tidy_time _ (fun id hid => tidy_output c1 hid) al d t) _ _ _ _ _ (by decide)
    · obtain ⟨g, _, h⟩ := Res.bind_eq_ok.1 h
      obtain ⟨_, _, h⟩ := Res.bind_eq_ok.1 h
      cases h
      exact main_bound g (Solve.brioWu_stable tidy_stable _ _ fun id hid => tidy_output c1 (hq id hid)) (fun d t => Lifetime.plasma_stable tidy_stable tidy_time _ (fun id hid => tidy_output c1 hid) al d t) _ _ _ _ _ (by decide)
  · rintro (h | h | h)
    · obtain ⟨g, _, h⟩ := Res.bind_eq_ok.1 h
      cases h
      exact main_bound g (Solve.initial_stable tidy_stable _ _ fun id hid => tidy_output c2 (by revert hid id; decide)) (fun d t => Lifetime.sod_stable tidy_stable tidy_time _ (fun id hid => tidy_output c2 hid) al d t) _ _ _ _ _ (by decide)
    · obtain ⟨g, _, h⟩ := Res.bind_eq_ok.1 h
      cases h
      exact main_bound g (Solve.initial_stable tidy_stable _ _ fun id hid => tidy_output c3 (by revert hid id; decide)) (fun d t => Lifetime.light_stable tidy_stable tidy_time _ (fun id hid => tidy_output c3 hid) al d t) _ _ _ _ _ (by decide)
    · obtain ⟨g, _, h⟩ := Res.bind_eq_ok.1 h
      cases h
      exact main_bound g (Solve.initial_stable tidy_stable _ _ fun id hid => tidy_output c3 (by revert hid id; decide)) (fun d t => Lifetime.light_stable tidy_stable tidy_time _ (fun id hid => tidy_output c3 hid) al d t) _ _ _ _ _ (by decide)
  · intro h
    obtain ⟨g, _, h⟩ := Res.bind_eq_ok.1 h
    cases h
    exact main_bound g (Solve.initial_stable tidy_stable _ _ fun id hid => tidy_output c4 (by revert hid id; decide)) (fun d t => Lifetime.advect_stable tidy_stable tidy_time (fun id hid => tidy_output c4 hid) d t) _ _ _ _ _ (by decide)

end

/-! ## Examples -/

-- C128: 200 steps of the program of C123 on 4 × 3 × 2 cells hold three arrays of 8 × 7 × 6 × 5 numbers
example : ∃ m', exClient.run (Mgr.make (⟨Range.setup [(0,4),(0,3),(0,2)], [0,0,0], [4,3,2], [1,1,1]⟩ : Rectilinear ℝ)) = .ok () m' ∧ m'.values ≤ 5040 := by
  have hw : ∀ x ∈ exClient.writes, x ∈ exNames := by decide
  have hc : Consistent (· ∈ exClient.writes) := by
    have : ∀ a ∈ exNames, ∀ b ∈ exNames, a.name = b.name → a = b := by decide
    exact fun a b ha hb => this a (hw a ha) b (hw b hb)
  obtain ⟨m', a1, -, a3⟩ := C128_memory (p := exClient) (k' := _) (g := (⟨Range.setup [(0,4),(0,3),(0,2)], [0,0,0], [4,3,2], [1,1,1]⟩ : Rectilinear ℝ)) hc (by decide) (by decide) (by decide) rfl
    (by rfl) (by intro f hf; cases hf)
  exact ⟨m', a1, a3.trans (by decide +kernel)⟩

-- C128: running it once more, or any loop over it, then allocates nothing
example : ∃ m : Mgr ℝ, (∀ id ∈ exClient.writes, m.contents id ≠ none) ∧ ∀ n : Nat, EndsWith m.Steady ((Client.loop n exClient).run m) := by
  have hc : Consistent (· ∈ exNames) := by
    have : ∀ a ∈ exNames, ∀ b ∈ exNames, a.name = b.name → a = b := by decide
    exact fun a b ha hb => this a ha b hb
  obtain ⟨m, h1, -, -, -, -, h4, -⟩ := Mgr.exists_manager (α := ℝ) hc (by decide) (⟨Range.setup [(0,4),(0,3),(0,2)], [0,0,0], [4,3,2], [1,1,1]⟩ : Rectilinear ℝ) (by decide) (by decide) 1 0
    (fun _ _ => 1) (ids := exNames) (fun _ h => h) (by decide)
  have hw : ∀ id ∈ exClient.writes, id ∈ exNames := by decide
  have he : ∀ id ∈ exClient.writes, m.contents id ≠ none := fun id hid => (h4 id (hw id hid)).exists
  exact ⟨m, he, fun n => C128_steady h1 (p := .loop n exClient) (fun id hid => ⟨hw id hid, he id hid⟩) (by intro f hf; cases hf)⟩

end QK.Props
