import Verif.Props.OneDim
import Verif.Proofs.Distance
import Verif.Proofs.Rest
/-
C94: how far information travels. C95: what is at rest stays at rest, and far from the jump nothing has happened yet.
-/
namespace QK.Props
open QK Spec GemChallenge

section
variable {α : Type} [Arith α] {p : Int} {ws ps : List Nat} {g : Rectilinear α}

/-- Agreement that shrinks by six moves with every step. -/
theorem chain_shrink {σ : Type} {Step : σ → σ → Prop} {Rel : Nat → σ → σ → Prop} (h : ∀ {r a b a' b'}, Step a a' → Step b b' → Rel r a b → Rel (r + 6) a' b') {s t : Nat → σ} :
    ∀ {k : Nat}, (∀ j < k, Step (s j) (s (j + 1))) → (∀ j < k, Step (t j) (t (j + 1))) → Rel 0 (s 0) (t 0) → ∀ j ≤ k, Rel (6 * j) (s j) (t j) := by
  intro k hs ht h0 j
  induction j with
  | zero => intro _; exact h0
  | succ j ih => intro hj; exact h (hs j (by omega)) (ht j (by omega)) (ih (by omega))

/-- **C94** After `k` steps the values in a cell depend only on the initial values at most `6 k` moves away: if two runs start with the same values there, they have the same
values in the cell after `k` steps, whatever happens elsewhere. Gas, light, plasma; walls or periodic; any arithmetic: bit for bit. -/
theorem C94_domain (C : Covered g.rng.dims ws ps) {k : Nat} {x : Cell} (hx : InBox (g.rng.dims ++ [(0, p)]) x) :
    (∀ {gamma t : α} {u v : Nat → Cell → α}, (∀ j < k, GasStep g p ws ps gamma t (u j) (u (j + 1))) → (∀ j < k, GasStep g p ws ps gamma t (v j) (v (j + 1))) →
      (∀ z, Within g.rng.dims p ps (6 * k) x z → SameAt 5 (u 0) (v 0) z) → SameAt 5 (u k) (v k) x) ∧
    (ws = [] → ∀ {c t : α} {u v : Nat → Cell → α}, (∀ j < k, LightStep g p ps c t (u j) (u (j + 1))) → (∀ j < k, LightStep g p ps c t (v j) (v (j + 1))) →
      (∀ z, Within g.rng.dims p ps (6 * k) x z → SameAt 6 (u 0) (v 0) z) → SameAt 6 (u k) (v k) x) ∧
    (∀ {P : Plasma α}, P.mults.length = 2 → ∀ {t : α} {u v : Nat → State α}, (∀ j < k, PlasmaStep P g p ws ps t (u j) (u (j + 1))) → (∀ j < k, PlasmaStep P g p ws ps t (v j) (v (j + 1))) →
      (∀ z, Within g.rng.dims p ps (6 * k) x z → SameStateAt (u 0) (v 0) z) → SameStateAt (u k) (v k) x) := by
  refine ⟨?_, ?_, ?_⟩
  · intro gamma t u v hu hv h0 j hj
    exact chain_shrink (Rel := fun r a b => AgreeBy (Around g.rng.dims p ps (SameAt 5 (u 0) (v 0)) r) 5 a b)
      (fun {r _ _ _ _} H K h => soloStep_agree (around_step C.wide C.all _ r) C.wide C.all (fun h => gasRate_agree h) H K h) hu hv
      (fun x y hR j hj => by obtain ⟨-, rfl, hA⟩ := hR; exact hA x rfl j hj) k le_rfl ⟨hx, rfl, h0⟩ hj
  · rintro rfl c t u v hu hv h0 j hj
    exact chain_shrink (Rel := fun r a b => AgreeBy (Around g.rng.dims p ps (SameAt 6 (u 0) (v 0)) r) 6 a b)
      (fun {r _ _ _ _} H K h => soloStep_agree (around_step C.wide C.all _ r) C.wide C.all (fun h => lightRate_agree h) H K h) hu hv
      (fun x y hR j hj => by obtain ⟨-, rfl, hA⟩ := hR; exact hA x rfl j hj) k le_rfl ⟨hx, rfl, h0⟩ hj
  · intro P hm t u v hu hv h0
    have := chain_shrink (Rel := fun r a b => StateAgree (Around g.rng.dims p ps (SameStateAt (u 0) (v 0)) r) a b)
      (fun {r _ _ _ _} H K h => plasmaStep_agree (around_step C.wide C.all _ r) C.wide C.all hm H K h) hu hv
      ⟨fun x y hR j hj => by obtain ⟨-, rfl, hA⟩ := hR; exact (hA x rfl).e j hj, fun x y hR j hj => by obtain ⟨-, rfl, hA⟩ := hR; exact (hA x rfl).i j hj,
        fun x y hR j hj => by obtain ⟨-, rfl, hA⟩ := hR; exact (hA x rfl).f j hj⟩ k le_rfl
    exact ⟨fun j hj => this.e ⟨hx, rfl, h0⟩ hj, fun j hj => this.i ⟨hx, rfl, h0⟩ hj, fun j hj => this.f ⟨hx, rfl, h0⟩ hj⟩

end

/-- **C95** A uniform gas at rest stays as it is, and so does a uniform plasma at rest without electric field, whatever the magnetic field, between walls too (a conducting wall that is not
across the first direction requires that the first component of the magnetic field is zero: the code changes its sign there). -/
theorem C95_rest {g : Rectilinear ℝ} {p : Int} {ws ps : List Nat} (C : Covered g.rng.dims ws ps) {t : ℝ} :
    (∀ {gamma : ℝ} {w : Nat → ℝ} {u : Nat → Cell → ℝ}, (∀ j, GasStep g p ws ps gamma t (u j) (u (j + 1))) → w 1 = 0 → w 2 = 0 → w 3 = 0 →
      (∀ x, InBox (g.rng.dims ++ [(0, p)]) x → ∀ j : Nat, j < 5 → u 0 (x ++ [(j : Int)]) = w j) →
      ∀ k x, InBox (g.rng.dims ++ [(0, p)]) x → ∀ j : Nat, j < 5 → u k (x ++ [(j : Int)]) = w j) ∧
    (∀ {P : Plasma ℝ} {we wi wf : Nat → ℝ} {u : Nat → State ℝ}, P.mults.length = 2 → (∀ j, PlasmaStep P g p ws ps t (u j) (u (j + 1))) →
      (∀ j, 1 ≤ j → j ≤ 3 → we j = 0) → (∀ j, 1 ≤ j → j ≤ 3 → wi j = 0) → (∀ j < 3, wf j = 0) → (wf 3 = 0 ∨ ∀ d ∈ ws, d = 0) →
      UniformPlasma g.rng.dims p we wi wf (u 0) → ∀ k, UniformPlasma g.rng.dims p we wi wf (u k)) := by
  constructor
  · intro gamma w u hs h1 h2 h3 h0 k
    refine flat_chain (I := ConstOn g.rng.dims p 5 w) (fun H h => soloStep_rest (n := 5) ?_ H h) (fun j _ => hs j) h0 k le_rfl
    intro u u' r F hu hr x hx j hj
    rw [hr x hx j hj]
    refine gas_rest C.wide C.all (fun j hj => ?_) F hu hx _ _
    rcases hj with e | e | e
    · exact .inl (by rw [show j = 1 by omega]; exact h1)
    · exact .inl (by rw [show j = 2 by omega]; exact h2)
    · exact .inl (by rw [show j = 3 by omega]; exact h3)
  · intro P we wi wf u hm hs he hi hE hB h0 k
    exact flat_chain (fun H h => plasmaStep_rest hm C.wide C.all he hi hE hB H h) (fun j _ => hs j) h0 k le_rfl

/-- **C95** In the shock tube, file `j` shows the initial state in all cells at least `6 · j · numSteps` cells away from the jump: density 1, energy 5/2 on the left; 1/8, 1/4 on the right. -/
theorem C95_sod {nx ny : Int} (hnx : 2 ≤ nx) (hny : 2 ≤ ny) (canOpen : Nat → Bool) (numFrames numSteps : Nat) :
    ∃ (s : Nat → Cell → ℝ) (file : Nat → List (Tok ℝ)) (r : SRes (Run ℝ) Unit), SodShockTube.run true canOpen nx ny numFrames numSteps = .ok r ∧ RunEnds canOpen numFrames file r ∧
      ∀ j ≤ numFrames, FileShowsOne [(0, nx), (0, ny)] ⟨"fluid", ["rho", "px", "py", "pz", "e"], Basis.volumeAverage⟩ (s j) (file j) ∧
        ∀ a b : Int, 0 ≤ a → a < nx → 0 ≤ b → b < ny → ∀ k : Nat, k < 5 →
          (2 * (a + 6 * (j * numSteps)) + 1 < nx → s j [a, b, 0, k] = ([1, 0, 0, 0, 5 / 2] : List ℝ).getD k 0) ∧
          (nx ≤ 2 * (a - 6 * (j * numSteps)) + 1 → s j [a, b, 0, k] = ([1 / 8, 0, 0, 0, 1 / 4] : List ℝ).getD k 0) := by
  obtain ⟨g, hg, hd, ⟨s, file, h0, hs, hf, r, hr, he⟩, -⟩ := C85_sod (α := ℝ) hnx hny canOpen numFrames numSteps
  have C : Covered g.rng.dims [0] [1] := by rw [hd]; exact covered_two hnx hny
  refine ⟨fun j => s (j * numSteps), file, r, hr, he, fun j hj => ⟨by rw [← hd]; exact hf j hj, ?_⟩⟩
  intro a b ha0 ha1 hb0 hb1 k hk
  have hx : InBox (g.rng.dims ++ [(0, 1)]) [a, b, 0] := by rw [hd]; simp [InBox]; omega
  have hn : (0 : ℝ) < nx := by
    have : 0 < nx := by omega
    exact_mod_cast this
  -- the initial values
  have start : ∀ z, InBox (g.rng.dims ++ [(0, 1)]) z → ∀ i : Nat, i < 5 →
      (2 * z.getD 0 0 + 1 < nx → s 0 (z ++ [(i : Int)]) = ([1, 0, 0, 0, 5 / 2] : List ℝ).getD i 0) ∧ (nx ≤ 2 * z.getD 0 0 + 1 → s 0 (z ++ [(i : Int)]) = ([1 / 8, 0, 0, 0, 1 / 4] : List ℝ).getD i 0) := by
    intro z hz i hi
    have hz' := hz
    rw [hd] at hz'
    match z, hz' with
    | [c, d, e], hz' =>
      obtain rfl : e = 0 := by simp [InBox] at hz'; omega
      rw [h0 _ hz i hi]
      have hc := ((C88_cells (nz := 0)).1 hg).2.2 c d
      have hlt : Arith.lt (centre g [c, d, 0] 0) (Arith.lit 0) = decide (2 * c + 1 < nx) := by
        rw [hc]
        rw [Bool.eq_iff_iff, real_lt, decide_eq_true_iff, real_lit]
        have e : (-1 / 2 + ((c : ℝ) + 1 / 2) / nx < ((0 : Rat) : ℝ)) ↔ (2 * (c : ℝ) + 1 < nx) := by
          rw [show -1 / 2 + ((c : ℝ) + 1 / 2) / nx = (2 * c + 1 - nx) / (2 * nx) by field_simp; ring]
          rw [Rat.cast_zero, div_lt_iff₀ (by positivity)]
          constructor <;> intro h <;> linarith
        rw [e]
        exact_mod_cast Iff.rfl
      rw [hlt]
      constructor
      · intro hc
        have : (2 * c + 1 < nx) := hc
        simp only [this, decide_true]
        obtain rfl | rfl | rfl | rfl | rfl : i = 0 ∨ i = 1 ∨ i = 2 ∨ i = 3 ∨ i = 4 := by omega
        all_goals simp [jumpState, real_lit]
        all_goals norm_num
      · intro hc
        have : ¬ (2 * c + 1 < nx) := by
          have : nx ≤ 2 * c + 1 := hc
          omega
        simp only [this, decide_false]
        obtain rfl | rfl | rfl | rfl | rfl : i = 0 ∨ i = 1 ∨ i = 2 ∨ i = 3 ∨ i = 4 := by omega
        all_goals simp [jumpState, real_lit]
        all_goals norm_num
  have near : ∀ z, Within g.rng.dims 1 [1] (6 * (j * numSteps)) [a, b, 0] z → a - 6 * (j * numSteps) ≤ z.getD 0 0 ∧ z.getD 0 0 ≤ a + 6 * (j * numSteps) := by
    intro z hz
    have := within_coord (d := 0) (by decide) hz
    push_cast at this
    exact this
  -- a uniform gas with these values
  have same : ∀ w : Nat → ℝ, w 1 = 0 → w 2 = 0 → w 3 = 0 →
      (∀ z, Within g.rng.dims 1 [1] (6 * (j * numSteps)) [a, b, 0] z → ∀ i : Nat, i < 5 → s 0 (z ++ [(i : Int)]) = w i) → s (j * numSteps) ([a, b, 0] ++ [(k : Int)]) = w k := by
    intro w h1 h2 h3 hw
    obtain ⟨v, hv0, hv⟩ := (C90_exists (g := g) (p := 1) (ws := [0]) (ps := [1]) (by rw [hd]; simp) (by rw [hd]; simp) (by decide)
      (Arith.lit (1 / 2) / Arith.ofInt (numFrames * numSteps))).1 (Arith.lit (7 / 5)) (fun x => w (component x).toNat)
    have hv0' : ∀ x, InBox (g.rng.dims ++ [(0, 1)]) x → ∀ i : Nat, i < 5 → v 0 (x ++ [(i : Int)]) = w i := by
      intro x _ i _
      rw [hv0]
      simp [component]
    have hle := Nat.mul_le_mul_right numSteps hj
    refine ((C94_domain (k := j * numSteps) C hx).1 (fun i hi => hs i (by omega)) (fun i _ => hv i) (fun z hz i hi => ?_) k hk).trans ((C95_rest C).1 hv h1 h2 h3 hv0' _ _ hx k hk)
    rw [hw z hz i hi, hv0' z (within_mesh hx hz) i hi]
  refine ⟨fun h => same (fun i => ([1, 0, 0, 0, 5 / 2] : List ℝ).getD i 0) rfl rfl rfl ?_, fun h => same (fun i => ([1 / 8, 0, 0, 0, 1 / 4] : List ℝ).getD i 0) rfl rfl rfl ?_⟩
  · intro z hz i hi
    have := near z hz
    exact (start z (within_mesh hx hz) i hi).1 (by omega)
  · intro z hz i hi
    have := near z hz
    exact (start z (within_mesh hx hz) i hi).2 (by omega)

/-- **C95** The same in the two-fluid shock tube. -/
theorem C95_brio {nx : Int} (hnx : 2 ≤ nx) (canOpen : Nat → Bool) (numFrames numSteps : Nat) :
    ∃ (P : Plasma ℝ) (s : Nat → State ℝ) (file : Nat → List (Tok ℝ)) (r : SRes (Run ℝ) Unit), BrioPlasma P ∧ TwoFluidBrioWu.run true canOpen nx numFrames numSteps = .ok r ∧
      RunEnds canOpen numFrames file r ∧ ∀ j ≤ numFrames, FileShows [(0, nx)] P (s j) (file j) ∧ ∀ a : Int, 0 ≤ a → a < nx →
        (2 * (a + 6 * (j * numSteps)) + 1 < nx → (∀ k : Nat, k < 5 → (s j).e [a, 0, k] = ([1 / 10, 0, 0, 0, 1] : List ℝ).getD k 0) ∧ (∀ k : Nat, k < 5 → (s j).i [a, 0, k] = ([1, 0, 0, 0, 1] : List ℝ).getD k 0) ∧
          ∀ k : Nat, k < 6 → (s j).f [a, 0, k] = ([0, 0, 0, 3 / 4, 1, 0] : List ℝ).getD k 0) ∧
        (nx ≤ 2 * (a - 6 * (j * numSteps)) + 1 → (∀ k : Nat, k < 5 → (s j).e [a, 0, k] = ([1 / 80, 0, 0, 0, 1 / 10] : List ℝ).getD k 0) ∧
          (∀ k : Nat, k < 5 → (s j).i [a, 0, k] = ([1 / 8, 0, 0, 0, 1 / 10] : List ℝ).getD k 0) ∧ ∀ k : Nat, k < 6 → (s j).f [a, 0, k] = ([0, 0, 0, 3 / 4, -1, 0] : List ℝ).getD k 0) := by
  obtain ⟨g, P, m0, hP, hg, hd, hic, -, -, ⟨s, file, h0, hs, hf, r, hr, he⟩, -⟩ := C84_brio (α := ℝ) hnx canOpen numFrames numSteps
  have C : Covered g.rng.dims [0] [] := by
    rw [hd]
    constructor
    · intro d hd; obtain rfl : d = 0 := by simpa using hd
      simp [hi, lo]; omega
    · intro d hd; obtain rfl : d = 0 := by simpa using hd
      simp
  have hm : P.mults.length = 2 := by rw [hP.current]; rfl
  refine ⟨P, fun j => s (j * numSteps), file, r, hP, hr, he, fun j hj => ⟨by rw [← hd]; exact hf j hj, fun a ha0 ha1 => ?_⟩⟩
  have hx : InBox (g.rng.dims ++ [(0, 1)]) [a, 0] := by rw [hd]; simp [InBox]; omega
  have near : ∀ z, Within g.rng.dims 1 [] (6 * (j * numSteps)) [a, 0] z → ∃ c : Int, z = [c, 0] ∧ 0 ≤ c ∧ c < nx ∧ a - 6 * (j * numSteps) ≤ c ∧ c ≤ a + 6 * (j * numSteps) := by
    intro z hz
    have h1 := within_coord (d := 0) (by decide) hz
    have h2 := within_mesh hx hz
    push_cast at h1
    rw [hd] at h2
    match z, h2 with
    | [c, e], h2 =>
      obtain rfl : e = 0 := by simp [InBox] at h2; omega
      simp [InBox] at h2
      exact ⟨c, rfl, by omega, by omega, h1⟩
  have start := fun {c : Int} (h0' : 0 ≤ c) (h1' : c < nx) => C88_brio hnx hg hic (by have := h0.e; rwa [show P.e.at 0 = electrons.q from hP.electrons] at this)
    (by have := h0.i; rwa [show P.i.at 0 = ions.q from hP.ions] at this) (by have := h0.f; rwa [show P.f.at 0 = fields.q from hP.field] at this) h0' h1'
  have same : ∀ we wi wf : Nat → ℝ, (∀ j, 1 ≤ j → j ≤ 3 → we j = 0) → (∀ j, 1 ≤ j → j ≤ 3 → wi j = 0) → (∀ j < 3, wf j = 0) →
      (∀ c : Int, 0 ≤ c → c < nx → a - 6 * (j * numSteps) ≤ c → c ≤ a + 6 * (j * numSteps) →
        (∀ k : Nat, k < 5 → (s 0).e [c, 0, k] = we k) ∧ (∀ k : Nat, k < 5 → (s 0).i [c, 0, k] = wi k) ∧ ∀ k : Nat, k < 6 → (s 0).f [c, 0, k] = wf k) →
      (∀ k : Nat, k < 5 → (s (j * numSteps)).e [a, 0, k] = we k) ∧ (∀ k : Nat, k < 5 → (s (j * numSteps)).i [a, 0, k] = wi k) ∧ ∀ k : Nat, k < 6 → (s (j * numSteps)).f [a, 0, k] = wf k := by
    intro we wi wf h1 h2 h3 hw
    obtain ⟨v, hv0, hv⟩ := (C90_exists (g := g) (p := 1) (ws := [0]) (ps := []) (by rw [hd]; simp) (by simp) (by simp) (Arith.lit (1 / 10) / Arith.ofInt (numFrames * numSteps))).2.2 P
      ⟨fun x => we (component x).toNat, fun x => wi (component x).toNat, fun x => wf (component x).toNat⟩
    have hv0' : UniformPlasma g.rng.dims 1 we wi wf (v 0) := by
      rw [hv0]
      refine ⟨fun x _ i _ => ?_, fun x _ i _ => ?_, fun x _ i _ => ?_⟩ <;> simp [component]
    have hle := Nat.mul_le_mul_right numSteps hj
    have A := (C94_domain (k := j * numSteps) C hx).2.2 hm (fun i hi => hs i (by omega)) (fun i _ => hv i) (fun z hz => by
      obtain ⟨c, rfl, c0, c1, c2, c3⟩ := near z hz
      obtain ⟨w1, w2, w3⟩ := hw c c0 c1 c2 c3
      have hz' := within_mesh hx hz
      exact ⟨fun i hi => (w1 i hi).trans (hv0'.e _ hz' i hi).symm, fun i hi => (w2 i hi).trans (hv0'.i _ hz' i hi).symm, fun i hi => (w3 i hi).trans (hv0'.f _ hz' i hi).symm⟩)
    have B := (C95_rest C).2 hm hv h1 h2 h3 (.inr (by simp)) hv0' (j * numSteps)
    exact ⟨fun k hk => (A.e k hk).trans (B.e _ hx k hk), fun k hk => (A.i k hk).trans (B.i _ hx k hk), fun k hk => (A.f k hk).trans (B.f _ hx k hk)⟩
  have z3 : ∀ (l : List ℝ), l.getD 1 0 = 0 → l.getD 2 0 = 0 → l.getD 3 0 = 0 → ∀ j, 1 ≤ j → j ≤ 3 → l.getD j 0 = 0 := by
    intro l a b c j h1 h3
    obtain rfl | rfl | rfl : j = 1 ∨ j = 2 ∨ j = 3 := by omega
    · exact a
    · exact b
    · exact c
  have z0 : ∀ (l : List ℝ), l.getD 0 0 = 0 → l.getD 1 0 = 0 → l.getD 2 0 = 0 → ∀ j < 3, l.getD j 0 = 0 := by
    intro l a b c j h3
    obtain rfl | rfl | rfl : j = 0 ∨ j = 1 ∨ j = 2 := by omega
    · exact a
    · exact b
    · exact c
  constructor
  · intro h
    refine same (fun i => ([1 / 10, 0, 0, 0, 1] : List ℝ).getD i 0) (fun i => ([1, 0, 0, 0, 1] : List ℝ).getD i 0) (fun i => ([0, 0, 0, 3 / 4, 1, 0] : List ℝ).getD i 0)
      (z3 _ rfl rfl rfl) (z3 _ rfl rfl rfl) (z0 _ rfl rfl rfl) (fun c c0 c1 c2 c3 => ?_)
    obtain ⟨s1, s2, s3⟩ := start c0 c1
    simp only [show 2 * c + 1 < nx by omega, if_true] at s1 s2 s3
    exact ⟨s1, s2, s3⟩
  · intro h
    refine same (fun i => ([1 / 80, 0, 0, 0, 1 / 10] : List ℝ).getD i 0) (fun i => ([1 / 8, 0, 0, 0, 1 / 10] : List ℝ).getD i 0) (fun i => ([0, 0, 0, 3 / 4, -1, 0] : List ℝ).getD i 0)
      (z3 _ rfl rfl rfl) (z3 _ rfl rfl rfl) (z0 _ rfl rfl rfl) (fun c c0 c1 c2 c3 => ?_)
    obtain ⟨s1, s2, s3⟩ := start c0 c1
    simp only [show ¬ 2 * c + 1 < nx by omega, if_false] at s1 s2 s3
    exact ⟨s1, s2, s3⟩

-- C94: two gases that differ in one corner of a mesh of 100 x 4 cells agree in cell (90, 0) after 10 steps
example {g : Rectilinear ℝ} (hd : g.rng.dims = [(0, 100), (0, 4)]) : ∃ u v : Nat → Cell → ℝ, u 0 ≠ v 0 ∧ (∀ j, GasStep g 1 [0] [1] (7 / 5) (1 / 100) (u j) (u (j + 1))) ∧
    (∀ j, GasStep g 1 [0] [1] (7 / 5) (1 / 100) (v j) (v (j + 1))) ∧ SameAt 5 (u 10) (v 10) [90, 0, 0] := by
  have C : Covered g.rng.dims [0] [1] := by rw [hd]; exact covered_two (by decide) (by decide)
  have E := (C90_exists (g := g) (p := 1) (ws := [0]) (ps := [1]) (by rw [hd]; decide) (by rw [hd]; decide) (by decide) (1 / 100)).1 (7 / 5)
  obtain ⟨u, hu0, hu⟩ := E (fun x => if component x = 0 ∨ component x = 4 then 1 else 0)
  obtain ⟨v, hv0, hv⟩ := E (fun x => if x = [0, 0, 0, 0] then 2 else if component x = 0 ∨ component x = 4 then 1 else 0)
  refine ⟨u, v, fun h => ?_, hu, hv, ?_⟩
  · have := congrFun h [0, 0, 0, 0]
    rw [hu0, hv0] at this
    simp [component] at this
  · refine (C94_domain (k := 10) C (by rw [hd]; decide)).1 (fun j _ => hu j) (fun j _ => hv j) (fun z hz j _ => ?_)
    have h0 := (within_coord (d := 0) (by decide) hz).1
    have hne : z ++ [(j : Int)] ≠ [0, 0, 0, 0] := ?_
    · rw [hu0, hv0]
      dsimp only
      rw [if_neg hne]
    intro e
    match z, h0, e with
    | [], h0, _ => simp at h0
    | a :: z, h0, e =>
      have : a = 0 := by simpa using congrArg List.head? e
      simp [this] at h0

-- C95: as configured, file 8 of the shock tube still has density 1 in the first ten cells
example : ∃ (s : Nat → Cell → ℝ) (file : Nat → List (Tok ℝ)) (r : SRes (Run ℝ) Unit), SodShockTube.sodShockTube true (fun _ => true) = .ok r ∧ RunEnds (fun _ => true) 100 file r ∧
    FileShowsOne [(0, 500), (0, 2)] ⟨"fluid", ["rho", "px", "py", "pz", "e"], Basis.volumeAverage⟩ (s 8) (file 8) ∧ ∀ a : Int, 0 ≤ a → a < 10 → s 8 [a, 0, 0, 0] = 1 := by
  obtain ⟨s, file, r, h1, h2, h3⟩ := C95_sod (nx := 500) (ny := 2) (by decide) (by decide) (fun _ => true) 100 5
  refine ⟨s, file, r, h1, h2, (h3 8 (by decide)).1, fun a h0 h => ?_⟩
  exact ((h3 8 (by decide)).2 a 0 h0 (by omega) (by decide) (by decide) 0 (by decide)).1 (by push_cast; omega)

end QK.Props
