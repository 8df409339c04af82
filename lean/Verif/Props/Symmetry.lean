import Verif.Props.Start
import Verif.Proofs.StepExists
import Verif.Spec.Symmetry
/-
C90: what the time steps depend on and how they commute with translations.
-/
namespace QK.Props
open QK Spec

section
variable {α : Type} [Arith α] {M : Box} {p : Int} {n : Nat}

theorem sameOn_iff {u v : Cell → α} : SameOn M p n u v ↔ AgreeBy (fun x y => InBox (M ++ [(0, p)]) x ∧ x = y) n u v := by
  constructor
  · rintro h x y ⟨hx, rfl⟩ j hj; exact h x hx j hj
  · intro h x hx j hj; exact h ⟨hx, rfl⟩ hj

theorem movedOn_iff {d : Nat} {t : Int} {u v : Cell → α} : MovedOn M p n d t u v ↔ AgreeBy (Shifted M p d t) n u v := by
  constructor
  · rintro h x y ⟨hx, hy, e⟩ j hj; exact (h x y hx hy e j hj).symm
  · intro h x y hx hy e j hj; exact (h ⟨hx, hy, e⟩ hj).symm

theorem uniformOn_iff {d : Nat} {u : Cell → α} : UniformOn M p n d u ↔ ∀ t, AgreeBy (Shifted M p d t) n u u := by
  constructor
  · rintro h t x y ⟨hx, hy, m, rfl⟩ j hj; exact (h x _ hx hy j hj).symm
  · intro h x t hx hy j hj; exact (h t ⟨hx, hy, 0, by simp⟩ hj).symm

/-- Relations between two states that every step keeps are kept by every number of steps. -/
theorem chain_rel {σ : Type} {Step : σ → σ → Prop} {R : σ → σ → Prop} (h : ∀ {a b a' b'}, Step a a' → Step b b' → R a b → R a' b') {s t : Nat → σ} :
    ∀ {k : Nat}, (∀ j < k, Step (s j) (s (j + 1))) → (∀ j < k, Step (t j) (t (j + 1))) → R (s 0) (t 0) → ∀ j ≤ k, R (s j) (t j) := by
  intro k hs ht h0 j
  induction j with
  | zero => intro _; exact h0
  | succ j ih => intro hj; exact h (hs j (by omega)) (ht j (by omega)) (ih (by omega))

/-- What the boundary conditions must cover: every direction, with at least two cells. -/
structure Covered (M : Box) (ws ps : List Nat) : Prop where
  wide : ∀ d < M.length, 2 ≤ hi M d - lo M d
  all : ∀ d < M.length, d ∈ ws ∨ d ∈ ps

variable {ws ps : List Nat} {g : Rectilinear α}

/-- **C90** A time step is determined by the values in the cells of the mesh: runs that start with the same values there have the same values there after any number of
steps, whatever the ghost cells held. Gas, light, plasma; any arithmetic. -/
theorem C90_unique (C : Covered g.rng.dims ws ps) {k : Nat} :
    (∀ {gamma t : α} {u v : Nat → Cell → α}, (∀ j < k, GasStep g p ws ps gamma t (u j) (u (j + 1))) → (∀ j < k, GasStep g p ws ps gamma t (v j) (v (j + 1))) →
      SameOn g.rng.dims p 5 (u 0) (v 0) → ∀ j ≤ k, SameOn g.rng.dims p 5 (u j) (v j)) ∧
    (ws = [] → ∀ {c t : α} {u v : Nat → Cell → α}, (∀ j < k, LightStep g p ps c t (u j) (u (j + 1))) → (∀ j < k, LightStep g p ps c t (v j) (v (j + 1))) →
      SameOn g.rng.dims p 6 (u 0) (v 0) → ∀ j ≤ k, SameOn g.rng.dims p 6 (u j) (v j)) ∧
    (∀ {P : Plasma α}, P.mults.length = 2 → ∀ {t : α} {u v : Nat → State α}, (∀ j < k, PlasmaStep P g p ws ps t (u j) (u (j + 1))) → (∀ j < k, PlasmaStep P g p ws ps t (v j) (v (j + 1))) →
      SameState g.rng.dims p (u 0) (v 0) → ∀ j ≤ k, SameState g.rng.dims p (u j) (v j)) := by
  have Y : ∀ ws, Symmetry g.rng.dims p ws (fun x y => InBox (g.rng.dims ++ [(0, p)]) x ∧ x = y) := fun ws => symmetry_eq C.wide
  refine ⟨?_, ?_, ?_⟩
  · intro gamma t u v hu hv h0 j hj
    exact chain_rel (R := SameOn g.rng.dims p 5) (fun H K h => sameOn_iff.2 (soloStep_agree (Y ws).step C.wide C.all (fun h => gasRate_agree h) H K (sameOn_iff.1 h))) hu hv h0 j hj
  · rintro rfl c t u v hu hv h0 j hj
    exact chain_rel (R := SameOn g.rng.dims p 6) (fun H K h => sameOn_iff.2 (soloStep_agree (Y []).step C.wide C.all (fun h => lightRate_agree h) H K (sameOn_iff.1 h))) hu hv h0 j hj
  · intro P hm t u v hu hv h0 j hj
    refine chain_rel (R := SameState g.rng.dims p) (fun H K h => ?_) hu hv h0 j hj
    have := plasmaStep_agree (Y ws).step C.wide C.all hm H K ⟨sameOn_iff.1 h.e, sameOn_iff.1 h.i, sameOn_iff.1 h.f⟩
    exact ⟨sameOn_iff.2 this.e, sameOn_iff.2 this.i, sameOn_iff.2 this.f⟩

/-- **C90** Along a periodic direction no place is special: moving the start by some cells moves all later states by as many cells. Any arithmetic: bit for bit. -/
theorem C90_moved (C : Covered g.rng.dims ws ps) {d : Nat} (hd : d < g.rng.dims.length) (hn : d ∉ ws) (b : Int) {k : Nat} :
    (∀ {gamma t : α} {u v : Nat → Cell → α}, (∀ j < k, GasStep g p ws ps gamma t (u j) (u (j + 1))) → (∀ j < k, GasStep g p ws ps gamma t (v j) (v (j + 1))) →
      MovedOn g.rng.dims p 5 d b (u 0) (v 0) → ∀ j ≤ k, MovedOn g.rng.dims p 5 d b (u j) (v j)) ∧
    (ws = [] → ∀ {c t : α} {u v : Nat → Cell → α}, (∀ j < k, LightStep g p ps c t (u j) (u (j + 1))) → (∀ j < k, LightStep g p ps c t (v j) (v (j + 1))) →
      MovedOn g.rng.dims p 6 d b (u 0) (v 0) → ∀ j ≤ k, MovedOn g.rng.dims p 6 d b (u j) (v j)) ∧
    (∀ {P : Plasma α}, P.mults.length = 2 → ∀ {t : α} {u v : Nat → State α}, (∀ j < k, PlasmaStep P g p ws ps t (u j) (u (j + 1))) → (∀ j < k, PlasmaStep P g p ws ps t (v j) (v (j + 1))) →
      MovedState g.rng.dims p d b (u 0) (v 0) → ∀ j ≤ k, MovedState g.rng.dims p d b (u j) (v j)) := by
  have Y : Symmetry g.rng.dims p ws (Shifted g.rng.dims p d b) := symmetry_shift C.wide hd hn b
  refine ⟨?_, ?_, ?_⟩
  · intro gamma t u v hu hv h0 j hj
    exact chain_rel (R := MovedOn g.rng.dims p 5 d b) (fun H K h => movedOn_iff.2 (soloStep_agree Y.step C.wide C.all (fun h => gasRate_agree h) H K (movedOn_iff.1 h))) hu hv h0 j hj
  · rintro rfl c t u v hu hv h0 j hj
    exact chain_rel (R := MovedOn g.rng.dims p 6 d b) (fun H K h => movedOn_iff.2 (soloStep_agree Y.step C.wide C.all (fun h => lightRate_agree h) H K (movedOn_iff.1 h))) hu hv h0 j hj
  · intro P hm t u v hu hv h0 j hj
    refine chain_rel (R := MovedState g.rng.dims p d b) (fun H K h => ?_) hu hv h0 j hj
    have := plasmaStep_agree Y.step C.wide C.all hm H K ⟨movedOn_iff.1 h.e, movedOn_iff.1 h.i, movedOn_iff.1 h.f⟩
    exact ⟨movedOn_iff.2 this.e, movedOn_iff.2 this.i, movedOn_iff.2 this.f⟩

/-- **C90** A state that does not vary along a periodic direction never varies along it. Any arithmetic. -/
theorem C90_uniform (C : Covered g.rng.dims ws ps) {d : Nat} (hd : d < g.rng.dims.length) (hn : d ∉ ws) {k : Nat} :
    (∀ {gamma t : α} {u : Nat → Cell → α}, (∀ j < k, GasStep g p ws ps gamma t (u j) (u (j + 1))) → UniformOn g.rng.dims p 5 d (u 0) → ∀ j ≤ k, UniformOn g.rng.dims p 5 d (u j)) ∧
    (ws = [] → ∀ {c t : α} {u : Nat → Cell → α}, (∀ j < k, LightStep g p ps c t (u j) (u (j + 1))) → UniformOn g.rng.dims p 6 d (u 0) → ∀ j ≤ k, UniformOn g.rng.dims p 6 d (u j)) ∧
    (∀ {P : Plasma α}, P.mults.length = 2 → ∀ {t : α} {u : Nat → State α}, (∀ j < k, PlasmaStep P g p ws ps t (u j) (u (j + 1))) → UniformState g.rng.dims p d (u 0) →
      ∀ j ≤ k, UniformState g.rng.dims p d (u j)) := by
  refine ⟨?_, ?_, ?_⟩
  · intro gamma t u hu h0 j hj
    exact uniformOn_iff.2 fun b => movedOn_iff.1 ((C90_moved C hd hn b).1 hu hu (movedOn_iff.2 (uniformOn_iff.1 h0 b)) j hj)
  · intro hw c t u hu h0 j hj
    exact uniformOn_iff.2 fun b => movedOn_iff.1 ((C90_moved C hd hn b).2.1 hw hu hu (movedOn_iff.2 (uniformOn_iff.1 h0 b)) j hj)
  · intro P hm t u hu h0 j hj
    have H := fun b => (C90_moved C hd hn b).2.2 hm hu hu
      ⟨movedOn_iff.2 (uniformOn_iff.1 h0.e b), movedOn_iff.2 (uniformOn_iff.1 h0.i b), movedOn_iff.2 (uniformOn_iff.1 h0.f b)⟩ j hj
    exact ⟨uniformOn_iff.2 fun b => movedOn_iff.1 (H b).e, uniformOn_iff.2 fun b => movedOn_iff.1 (H b).i, uniformOn_iff.2 fun b => movedOn_iff.1 (H b).f⟩

/-- **C90** And a step exists from every state, so that runs of any length exist from every state. -/
theorem C90_exists (hw : ∀ i ∈ ws, i < g.rng.dims.length) (hp : ∀ i ∈ ps, i < g.rng.dims.length) (hd : ∀ i ∈ ws, i ∉ ps) (t : α) :
    (∀ (gamma : α) (q : Cell → α), ∃ u : Nat → Cell → α, u 0 = q ∧ ∀ j, GasStep g p ws ps gamma t (u j) (u (j + 1))) ∧
    (∀ (c : α) (q : Cell → α), ∃ u : Nat → Cell → α, u 0 = q ∧ ∀ j, LightStep g p ps c t (u j) (u (j + 1))) ∧
    (∀ (P : Plasma α) (q : State α), ∃ u : Nat → State α, u 0 = q ∧ ∀ j, PlasmaStep P g p ws ps t (u j) (u (j + 1))) :=
  ⟨fun gamma q => chain_exists (fun a => soloStep_exists hw hp hd (gasRate_exists _ gamma) t a) q,
   fun c q => chain_exists (fun a => soloStep_exists (by simp) hp (by simp) (lightRate_exists _ c) t a) q,
   fun _ q => chain_exists (fun a => plasmaStep_exists hw hp hd t a) q⟩

-- walls on all four sides of 3 x 4 cells: a step exists from every state, and it keeps the totals of `By` and `Bz` (C83)
example (P : Plasma ℝ) (q : State ℝ) : ∃ q', PlasmaStep P (⟨Range.setup [(0, 3), (0, 4)], [0, 0], [1, 1], [1 / 3, 1 / 4]⟩ : Rectilinear ℝ) 1 [0, 1] []
      (1 / 1000) q q' ∧ fieldTotal [(0, 3), (0, 4)] 1 q'.f 4 = fieldTotal [(0, 3), (0, 4)] 1 q.f 4 := by
  obtain ⟨u, rfl, H⟩ := (C90_exists (g := (⟨Range.setup [(0, 3), (0, 4)], [0, 0], [1, 1], [1 / 3, 1 / 4]⟩ : Rectilinear ℝ)) (p := (1 : Nat)) (ws := [0, 1])
    (ps := []) (by simp) (by simp) (by simp) (1 / 1000)).2.2 P q
  exact ⟨u 1, H 0, C83_any_walls (p := 1) (by decide) (by decide) (by decide) (by decide) (by decide) (H 0) (.inl rfl)⟩

/-! ## The programs -/

theorem covered_two {nx ny : Int} (hnx : 2 ≤ nx) (hny : 2 ≤ ny) : Covered [(0, nx), (0, ny)] [0] [1] := by
  constructor
  · intro d hd
    match d, hd with
    | 0, _ => simpa [lo, hi] using hnx
    | 1, _ => simpa [lo, hi] using hny
  · intro d hd; simp at hd ⊢; omega

theorem covered_three {nx ny nz : Int} (hnx : 2 ≤ nx) (hny : 2 ≤ ny) (hnz : 2 ≤ nz) : Covered [(0, nx), (0, ny), (0, nz)] [] [0, 1, 2] := by
  constructor
  · intro d hd
    match d, hd with
    | 0, _ => simpa [lo, hi] using hnx
    | 1, _ => simpa [lo, hi] using hny
    | 2, _ => simpa [lo, hi] using hnz
  · intro d hd; simp at hd ⊢; omega

theorem centre_moved {x : Cell} {d i : Nat} (h : d ≠ i) (t : Int) : centre g (moveBy x d t) i = centre g x i := by
  unfold centre
  rw [show (moveBy x d t).getD i 0 = x.getD i 0 by
    simp [moveBy, List.getD_eq_getElem?_getD, List.getElem?_modify, h]]

/-- **C90** The shock tube stays a function of `x` alone: in every file the values do not vary along `y`. -/
theorem C90_sod {nx ny : Int} (hnx : 2 ≤ nx) (hny : 2 ≤ ny) (canOpen : Nat → Bool) (numFrames numSteps : Nat) :
    ∃ (s : Nat → Cell → α) (file : Nat → List (Tok α)) (r : SRes (Run α) Unit), SodShockTube.run true canOpen nx ny numFrames numSteps = .ok r ∧ RunEnds canOpen numFrames file r ∧
      ∀ j ≤ numFrames, FileShowsOne [(0, nx), (0, ny)] ⟨"fluid", ["rho", "px", "py", "pz", "e"], Basis.volumeAverage⟩ (s j) (file j) ∧ UniformOn [(0, nx), (0, ny)] 1 5 1 (s j) := by
  obtain ⟨g, -, hd, ⟨s, file, h0, hs, hf, r, hr, he⟩, -⟩ := C85_sod (α := α) hnx hny canOpen numFrames numSteps
  refine ⟨fun j => s (j * numSteps), file, r, hr, he, fun j hj => ⟨by rw [← hd]; exact hf j hj, ?_⟩⟩
  rw [← hd]
  refine (C90_uniform (by rw [hd]; exact covered_two hnx hny) (by rw [hd]; simp) (by simp)).1 hs ?_ _
    (Nat.mul_le_mul_right _ hj)
  intro x t hx hy j hj
  rw [h0 _ hx _ hj, h0 _ hy _ hj, centre_moved (by decide)]

/-- **C90** The plane wave stays a function of `z` alone: in every file the values do not vary along `x` or `y`. -/
theorem C90_wave {nx ny nz : Int} (hnx : 2 ≤ nx) (hny : 2 ≤ ny) (hnz : 2 ≤ nz) (canOpen : Nat → Bool) (numFrames numSteps : Nat) :
    ∃ (s : Nat → Cell → α) (file : Nat → List (Tok α)) (r : SRes (Run α) Unit), Wave1D.run true canOpen nx ny nz numFrames numSteps = .ok r ∧ RunEnds canOpen numFrames file r ∧
      ∀ j ≤ numFrames, FileShowsOne [(0, nx), (0, ny), (0, nz)] ⟨"field", ["Ex", "Ey", "Ez", "Bx", "By", "Bz"], Basis.volumeAverage⟩ (s j) (file j) ∧
        UniformOn [(0, nx), (0, ny), (0, nz)] 1 6 0 (s j) ∧ UniformOn [(0, nx), (0, ny), (0, nz)] 1 6 1 (s j) := by
  obtain ⟨g, -, hd, ⟨s, file, h0, hs, hf, r, hr, he⟩, -⟩ := C86_wave (α := α) hnx hny hnz canOpen numFrames numSteps
  refine ⟨fun j => s (j * numSteps), file, r, hr, he, fun j hj => ⟨by rw [← hd]; exact hf j hj, ?_⟩⟩
  rw [← hd]
  have key : ∀ d : Nat, d ≠ 2 → d < 3 → UniformOn g.rng.dims 1 6 d (s (j * numSteps)) := by
    intro d h2 h3
    refine (C90_uniform (ws := []) (by rw [hd]; exact covered_three hnx hny hnz) (by rw [hd]; simpa using h3) (by simp)).2.1 rfl
      hs ?_ _ (Nat.mul_le_mul_right _ hj)
    intro x t hx hy j hj
    rw [h0 _ hx _ hj, h0 _ hy _ hj, centre_moved h2]
  exact ⟨key 0 (by decide) (by decide), key 1 (by decide) (by decide)⟩

end

-- C90: on the mesh of the program of main.cpp, from any two states that agree up to a shift by seven cells along y
example {P : Plasma ℝ} (hm : P.mults.length = 2) {g : Rectilinear ℝ} (hd : g.rng.dims = [(0, 256), (0, 512)]) (t : ℝ) (a b : State ℝ) (h : MovedState g.rng.dims 1 1 7 a b) :
    ∃ u v : Nat → State ℝ, u 0 = a ∧ v 0 = b ∧ (∀ j, PlasmaStep P g 1 [0] [1] t (u j) (u (j + 1))) ∧ (∀ j, PlasmaStep P g 1 [0] [1] t (v j) (v (j + 1))) ∧
      ∀ j, MovedState g.rng.dims 1 1 7 (u j) (v j) := by
  have hw : ∀ i ∈ [0], i < g.rng.dims.length := by rw [hd]; decide
  have hp : ∀ i ∈ [1], i < g.rng.dims.length := by rw [hd]; decide
  obtain ⟨u, hu, su⟩ := (C90_exists (p := 1) hw hp (by decide) t).2.2 P a
  obtain ⟨v, hv, sv⟩ := (C90_exists (p := 1) hw hp (by decide) t).2.2 P b
  refine ⟨u, v, hu, hv, su, sv, fun j => ?_⟩
  refine (C90_moved (d := 1) (k := j) (by rw [hd]; exact covered_two (by decide) (by decide)) (by rw [hd]; decide) (by decide) 7).2.2 hm (fun i _ => su i) (fun i _ => sv i) ?_ j le_rfl
  rw [hu, hv]; exact h

-- a field and the same field one cell further along a ring of three cells
example : MovedOn [(0, 3)] 1 1 0 1 (fun x => if x.getD 0 0 = 2 then (5 : ℝ) else 0) (fun x => if x.getD 0 0 = 0 then (5 : ℝ) else 0) := by
  rintro x y hx hy ⟨m, rfl⟩ j _
  have h1 := ((inBox_iff _ x).1 hx).2 0 (by decide)
  have h2 := ((inBox_iff _ _).1 hy).2 0 (by decide)
  have hl := hx.length_eq
  match x, hl with
  | [a, b], _ =>
    simp [moveBy, lo, hi] at h1 h2 ⊢
    split_ifs <;> first | rfl | omega

-- C90: as configured
example (canOpen : Nat → Bool) : ∃ (s : Nat → Cell → ℝ) (file : Nat → List (Tok ℝ)) (r : SRes (Run ℝ) Unit), SodShockTube.sodShockTube true canOpen = .ok r ∧ RunEnds canOpen 100 file r ∧
    ∀ j ≤ 100, FileShowsOne [(0, 500), (0, 2)] ⟨"fluid", ["rho", "px", "py", "pz", "e"], Basis.volumeAverage⟩ (s j) (file j) ∧ UniformOn [(0, 500), (0, 2)] 1 5 1 (s j) :=
  C90_sod (by decide) (by decide) canOpen 100 5

end QK.Props
