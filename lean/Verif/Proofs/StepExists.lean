import Verif.Proofs.Stencil
/-
Time steps exist from every state.
-/
namespace QK
open Spec

theorem faceGhost_out {B : Box} {i : Nat} (hi' : i < B.length) {x : Cell} (h : FaceGhost 2 B i x) :
    ¬ (lo B i ≤ x.getD i 0 ∧ x.getD i 0 < hi B i) ∧ ∀ k < B.length, k ≠ i → lo B k ≤ x.getD k 0 ∧ x.getD k 0 < hi B k := by
  rcases h with h | h
  · unfold LowGhost at h
    rw [inBox_slab hi'] at h
    exact ⟨fun c => by have := h.2.2.1; omega, fun k hk hne => h.2.2.2 k hk hne⟩
  · unfold UpGhost at h
    rw [inBox_slab hi'] at h
    exact ⟨fun c => by have := h.2.1; omega, fun k hk hne => h.2.2.2 k hk hne⟩

section
variable {α : Type} [Arith α] {M : Box} {p : Int} {ws ps : List Nat}

theorem filled_exists {D : Box} {flip : Int → Prop} (hw : ∀ i ∈ ws, i < M.length) (hp : ∀ i ∈ ps, i < M.length) (hd : ∀ i ∈ ws, i ∉ ps) (u : Cell → α) :
    ∃ u', Filled M D ws flip ps u u' := by
  classical
  let u' : Cell → α := fun x =>
    if InBox (M ++ D) x then u x
    else if h : ∃ i ∈ ws, FaceGhost 2 (M ++ D) i x then
      (if flip (component x) then u (mirrorImage 2 (M ++ D) h.choose x) * Arith.lit (-1) else u (mirrorImage 2 (M ++ D) h.choose x))
    else if h : ∃ i ∈ ps, FaceGhost 2 (M ++ D) i x then u (periodicImage 2 (M ++ D) h.choose x)
    else u x
  have len : ∀ i, i < M.length → i < (M ++ D).length := by intro i h; simp; omega
  have out : ∀ {i x}, i < M.length → FaceGhost 2 (M ++ D) i x → ¬ InBox (M ++ D) x := by
    intro i x hi' h hb
    exact (faceGhost_out (len i hi') h).1 (((inBox_iff _ x).1 hb).2 i (len i hi'))
  have same : ∀ {i x} (h : ∃ i ∈ ws, FaceGhost 2 (M ++ D) i x), i < M.length → FaceGhost 2 (M ++ D) i x → h.choose = i := by
    intro i x h hi' hg
    exact faceGhost_unique (len _ (hw _ h.choose_spec.1)) (len _ hi') h.choose_spec.2 hg
  have same' : ∀ {i x} (h : ∃ i ∈ ps, FaceGhost 2 (M ++ D) i x), i < M.length → FaceGhost 2 (M ++ D) i x → h.choose = i := by
    intro i x h hi' hg
    exact faceGhost_unique (len _ (hp _ h.choose_spec.1)) (len _ hi') h.choose_spec.2 hg
  refine ⟨u', ?_, ?_, ?_, ?_⟩
  · intro x hx; simp only [u', if_pos hx]
  · intro i hi' x hg hf
    have h : ∃ i ∈ ws, FaceGhost 2 (M ++ D) i x := ⟨i, hi', hg⟩
    simp only [u', if_neg (out (hw i hi') hg), dif_pos h, if_pos hf, same h (hw i hi') hg]
  · intro i hi' x hg hf
    have h : ∃ i ∈ ws, FaceGhost 2 (M ++ D) i x := ⟨i, hi', hg⟩
    simp only [u', if_neg (out (hw i hi') hg), dif_pos h, if_neg hf, same h (hw i hi') hg]
  · intro i hi' x hg
    have h : ∃ i ∈ ps, FaceGhost 2 (M ++ D) i x := ⟨i, hi', hg⟩
    have hn : ¬ ∃ i ∈ ws, FaceGhost 2 (M ++ D) i x := by
      rintro ⟨k, hk, hgk⟩
      have := faceGhost_unique (len _ (hw k hk)) (len _ (hp i hi')) hgk hg
      subst this
      exact hd k hk hi'
    simp only [u', if_neg (out (hp i hi') hg), dif_neg hn, dif_pos h, same' h (hp i hi') hg]

omit [Arith α] in
/-- A field with given components. -/
theorem field_of (f : Cell → Nat → α) : ∃ r : Cell → α, ∀ x (j : Nat), r (x ++ [(j : Int)]) = f x j :=
  ⟨fun z => f z.dropLast (z.getLast?.getD 0).toNat, fun x j => by simp⟩

theorem gasRate_exists (dx : Nat → α) (gamma : α) (u : Cell → α) : ∃ r, GasRate M p dx gamma u r := by
  obtain ⟨r, h⟩ := field_of fun x j => fvUpdate (fun dim => fluxOf (Euler.hll gamma dim)) 5 (fun x j => u (x ++ [(j : Int)])) dx (List.range M.length) x j (Arith.lit 0)
  exact ⟨r, fun x _ j _ => h x j⟩

theorem lightRate_exists (dx : Nat → α) (c : α) (u : Cell → α) : ∃ r, LightRate M p dx c u r := by
  obtain ⟨r, h⟩ := field_of fun x j => fvUpdate (fun dim => fluxOf (Maxwell.rusanov c dim)) 6 (fun x j => u (x ++ [(j : Int)])) dx (List.range (min M.length 3)) x j (Arith.lit 0)
  exact ⟨r, fun x _ j _ => h x j⟩

theorem snoc_cases (z : Cell) : z = [] ∨ ∃ x k, z = x ++ [k] := by
  rcases List.eq_nil_or_concat z with h | ⟨x, k, h⟩
  · exact .inl h
  · exact .inr ⟨x, k, by simpa using h⟩

theorem lorentz_exists (com : α) (B : Box) (u w v : Cell → α) : ∃ v', LorentzAdded com B u w v v' := by
  classical
  let f : Cell → Int → α := fun x k =>
    if k = 1 then v (x ++ [1]) + com * (u (x ++ [0]) * w (x ++ [0]) + u (x ++ [2]) * w (x ++ [5]) - u (x ++ [3]) * w (x ++ [4]))
    else if k = 2 then v (x ++ [2]) + com * (u (x ++ [0]) * w (x ++ [1]) + u (x ++ [3]) * w (x ++ [3]) - u (x ++ [1]) * w (x ++ [5]))
    else if k = 3 then v (x ++ [3]) + com * (u (x ++ [0]) * w (x ++ [2]) + u (x ++ [1]) * w (x ++ [4]) - u (x ++ [2]) * w (x ++ [3]))
    else v (x ++ [4]) + com * (u (x ++ [1]) * w (x ++ [0]) + u (x ++ [2]) * w (x ++ [1]) + u (x ++ [3]) * w (x ++ [2]))
  let v' : Cell → α := fun z => if InBox B z.dropLast ∧ 1 ≤ z.getLast?.getD 0 ∧ z.getLast?.getD 0 ≤ 4 then f z.dropLast (z.getLast?.getD 0) else v z
  have e : ∀ x k, InBox B x → 1 ≤ k → k ≤ 4 → v' (x ++ [k]) = f x k := by
    intro x k hx h1 h2
    simp [v', hx, h1, h2]
  refine ⟨v', ?_, ?_, ?_, ?_, ?_⟩
  · intro x hx; rw [e x 1 hx (by decide) (by decide)]; simp [f]
  · intro x hx; rw [e x 2 hx (by decide) (by decide)]; simp [f]
  · intro x hx; rw [e x 3 hx (by decide) (by decide)]; simp [f]
  · intro x hx; rw [e x 4 hx (by decide) (by decide)]; simp [f]
  · intro y hy
    simp only [v']
    refine if_neg ?_
    rintro ⟨h1, h2, h3⟩
    rcases snoc_cases y with rfl | ⟨x, k, rfl⟩
    · simp at h2
    · simp at h1 h2 h3
      exact hy x k h1 h2 h3 rfl

theorem current_exists (B : Box) (fluids : List (α × (Cell → α))) (v : Cell → α) : ∃ v', CurrentAdded B fluids v v' := by
  classical
  let v' : Cell → α := fun z => if InBox B z.dropLast ∧ 0 ≤ z.getLast?.getD (-1) ∧ z.getLast?.getD (-1) < 3 then
    fluids.foldl (fun r f => r + f.1 * f.2 (z.dropLast ++ [z.getLast?.getD (-1) + 1])) (v z) else v z
  refine ⟨v', ?_, ?_⟩
  · intro x k hx h1 h2
    simp [v', hx, h1, h2]
  · intro y hy
    simp only [v']
    refine if_neg ?_
    rintro ⟨h1, h2, h3⟩
    rcases snoc_cases y with rfl | ⟨x, k, rfl⟩
    · simp at h2
    · simp at h1 h2 h3
      exact hy x k h1 h2 h3 rfl

theorem fluidRate_exists (dx : Nat → α) (gamma com : α) (u w : Cell → α) : ∃ r, FluidRate M p dx gamma com u w r := by
  obtain ⟨r0, h⟩ := gasRate_exists (M := M) (p := p) dx gamma u
  obtain ⟨r, h'⟩ := lorentz_exists com (M ++ [(0, p)]) u w r0
  exact ⟨r, r0, h, h'⟩

theorem fieldRate_exists (dx : Nat → α) (c : α) (fluids : List (α × (Cell → α))) (w : Cell → α) : ∃ r, FieldRate M p dx c fluids w r := by
  obtain ⟨r0, h⟩ := lightRate_exists (M := M) (p := p) dx c w
  obtain ⟨r, h'⟩ := current_exists (M ++ [(0, p)]) fluids r0
  exact ⟨r, r0, h, h'⟩

theorem soloStep_exists {n : Nat} {flip : Int → Prop} {Rate : (Cell → α) → (Cell → α) → Prop} (hw : ∀ i ∈ ws, i < M.length) (hp : ∀ i ∈ ps, i < M.length) (hd : ∀ i ∈ ws, i ∉ ps)
    (hr : ∀ u, ∃ r, Rate u r) (t : α) (q : Cell → α) : ∃ q', SoloStep M p n ws flip ps Rate t q q' := by
  obtain ⟨q0, F0⟩ := filled_exists (D := [(0, p), (0, (n : Int))]) (flip := flip) hw hp hd q
  obtain ⟨r0, R0⟩ := hr q0
  obtain ⟨q1', F1⟩ := filled_exists (D := [(0, p), (0, (n : Int))]) (flip := flip) hw hp hd (fun x => rkStage 0 t (q0 x) (q0 x) (r0 x))
  obtain ⟨r1, R1⟩ := hr q1'
  obtain ⟨q2', F2⟩ := filled_exists (D := [(0, p), (0, (n : Int))]) (flip := flip) hw hp hd (fun x => rkStage 1 t (q0 x) (q1' x) (r1 x))
  obtain ⟨r2, R2⟩ := hr q2'
  exact ⟨_, q0, r0, _, q1', r1, _, q2', r2, ⟨F0, R0, fun _ => rfl⟩, ⟨F1, R1, fun _ => rfl⟩, ⟨F2, R2, fun _ => rfl⟩⟩

theorem plasmaStage_exists {P : Plasma α} {g : Rectilinear α} (hw : ∀ i ∈ ws, i < g.rng.dims.length) (hp : ∀ i ∈ ps, i < g.rng.dims.length) (hd : ∀ i ∈ ws, i ∉ ps) (t : α) (k : Nat)
    (cur : State α) : ∃ cur' rate : State α, ∀ start : State α, ∃ next, PlasmaStage P g p ws ps t k start cur cur' rate next := by
  obtain ⟨e', he⟩ := filled_exists (D := [(0, p), (0, 5)]) (flip := isMomentum) hw hp hd cur.e
  obtain ⟨i', hi'⟩ := filled_exists (D := [(0, p), (0, 5)]) (flip := isMomentum) hw hp hd cur.i
  obtain ⟨f', hf⟩ := filled_exists (D := [(0, p), (0, 6)]) (flip := isWallField) hw hp hd cur.f
  obtain ⟨re, hre⟩ := fluidRate_exists (M := g.rng.dims) (p := p) g.dxAt P.gamma P.comE e' f'
  obtain ⟨ri, hri⟩ := fluidRate_exists (M := g.rng.dims) (p := p) g.dxAt P.gamma P.comI i' f'
  obtain ⟨rf, hrf⟩ := fieldRate_exists (M := g.rng.dims) (p := p) g.dxAt P.c (P.mults.zip [e', i']) f'
  exact ⟨⟨e', i', f'⟩, ⟨re, ri, rf⟩, fun start => ⟨⟨fun x => rkStage k t (start.e x) (e' x) (re x), fun x => rkStage k t (start.i x) (i' x) (ri x),
    fun x => rkStage k t (start.f x) (f' x) (rf x)⟩, he, hi', hf, hre, hri, hrf, fun _ => rfl, fun _ => rfl, fun _ => rfl⟩⟩

theorem plasmaStep_exists {P : Plasma α} {g : Rectilinear α} (hw : ∀ i ∈ ws, i < g.rng.dims.length) (hp : ∀ i ∈ ps, i < g.rng.dims.length) (hd : ∀ i ∈ ws, i ∉ ps) (t : α)
    (q : State α) : ∃ q', PlasmaStep P g p ws ps t q q' := by
  obtain ⟨q0, r0, h0⟩ := plasmaStage_exists (P := P) (p := p) hw hp hd t 0 q
  obtain ⟨q1, h0⟩ := h0 q0
  obtain ⟨q1', r1, h1⟩ := plasmaStage_exists (P := P) (p := p) hw hp hd t 1 q1
  obtain ⟨q2, h1⟩ := h1 q0
  obtain ⟨q2', r2, h2⟩ := plasmaStage_exists (P := P) (p := p) hw hp hd t 2 q2
  obtain ⟨q', h2⟩ := h2 q0
  exact ⟨q', q0, r0, q1, q1', r1, q2, q2', r2, h0, h1, h2⟩

/-- Runs of any length. -/
theorem chain_exists {σ : Type} {Step : σ → σ → Prop} (h : ∀ a, ∃ b, Step a b) (a : σ) : ∃ s : Nat → σ, s 0 = a ∧ ∀ j, Step (s j) (s (j + 1)) := by
  choose f hf using h
  exact ⟨fun j => f^[j] a, rfl, fun j => by dsimp only; rw [Function.iterate_succ_apply']; exact hf _⟩

end
end QK
