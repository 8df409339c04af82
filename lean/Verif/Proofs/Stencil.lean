import Verif.Proofs.WallReal
/-
What a cell reads in a time step: every position of its stencil has the value of a mesh cell, up to a sign at walls. Symmetries of the mesh are
therefore symmetries of the time step, in any arithmetic.
-/
namespace QK
open Spec

/-- How far the cell is whose value is read at distance `s` from coordinate `a`, on an interval from `l` to `h`. -/
def imageShift (wall : Bool) (l h a s : Int) : Int :=
  if l ≤ a + s ∧ a + s < h then s
  else if wall then (if a + s < l then 2 * l - 1 - (a + s) - a else 2 * h - 1 - (a + s) - a)
  else if a + s < l then s + (h - l) else s + (l - h)

/-- The mesh cell whose value is read at distance `s` from `x` in direction `dim`. -/
def image (M : Box) (ws : List Nat) (x : Cell) (dim : Nat) (s : Int) : Cell :=
  moveBy x dim (imageShift (decide (dim ∈ ws)) (lo M dim) (hi M dim) (x.getD dim 0) s)

/-- That position lies outside the mesh. -/
def Beyond (M : Box) (x : Cell) (dim : Nat) (s : Int) : Prop := ¬ (lo M dim ≤ x.getD dim 0 + s ∧ x.getD dim 0 + s < hi M dim)

theorem moveBy_comm {x : Cell} {i j : Nat} (hi' : i < x.length) (hj : j < x.length) (s t : Int) : moveBy (moveBy x i s) j t = moveBy (moveBy x j t) i s := by
  refine List.ext_getElem? fun k => ?_
  unfold moveBy
  simp only [List.getElem?_modify]
  cases x[k]? with
  | none => rfl
  | some v =>
    show some _ = some _
    congr 1
    split_ifs <;> ring

theorem inBox_moved {B : Box} {x : Cell} (hx : InBox B x) {i : Nat} {s : Int} (hi' : i < B.length) (h1 : lo B i ≤ x.getD i 0 + s) (h2 : x.getD i 0 + s < hi B i) :
    InBox B (moveBy x i s) := by
  have hin := (inBox_iff _ x).1 hx
  rw [inBox_iff]
  refine ⟨by rw [moveBy_length]; exact hin.1, ?_⟩
  intro k hk
  rw [moveBy_getD (by omega)]
  split_ifs with e
  · subst e; exact ⟨h1, h2⟩
  · exact hin.2 k hk

section
variable {M : Box} {p : Int} {ws : List Nat}

theorem image_mesh {x : Cell} (hx : InBox (M ++ [(0, p)]) x) {dim : Nat} (hd : dim < M.length) (hw : 2 ≤ hi M dim - lo M dim) {s : Int} (h1 : -2 ≤ s) (h2 : s ≤ 2) :
    InBox (M ++ [(0, p)]) (image M ws x dim s) := by
  have hb := ((inBox_iff _ x).1 hx).2 dim (by simp; omega)
  rw [lo_append hd, hi_append hd] at hb
  refine inBox_moved hx (by simp; omega) ?_ ?_ <;>
  · first | rw [lo_append hd] | rw [hi_append hd]
    unfold imageShift
    split_ifs <;> omega

variable {α : Type} [Arith α]

/-- The value of a filled field at a position of the stencil. -/
theorem filled_image {n : Nat} {flip : Int → Prop} {ps : List Nat} {u u' : Cell → α} (F : Filled M [(0, p), (0, (n : Int))] ws flip ps u u') {x : Cell} (hx : InBox (M ++ [(0, p)]) x)
    {dim : Nat} (hd : dim < M.length) (hw : 2 ≤ hi M dim - lo M dim) (hc : dim ∈ ws ∨ dim ∈ ps) {s : Int} (h1 : -2 ≤ s) (h2 : s ≤ 2) {j : Nat} (hj : j < n) :
    ((Beyond M x dim s ∧ dim ∈ ws ∧ flip j) → u' (moveBy x dim s ++ [(j : Int)]) = u (image M ws x dim s ++ [(j : Int)]) * Arith.lit (-1)) ∧
    (¬ (Beyond M x dim s ∧ dim ∈ ws ∧ flip j) → u' (moveBy x dim s ++ [(j : Int)]) = u (image M ws x dim s ++ [(j : Int)])) := by
  have hlen : x.length = M.length + 1 := by rw [hx.length_eq]; simp
  have hdl : dim < (M ++ [((0 : Int), p)]).length := by simp; omega
  have hdl' : dim < (M ++ [((0 : Int), p), (0, (n : Int))]).length := by simp; omega
  have hlo : lo (M ++ [((0 : Int), p), (0, (n : Int))]) dim = lo M dim := lo_append hd
  have hhi : hi (M ++ [((0 : Int), p), (0, (n : Int))]) dim = hi M dim := hi_append hd
  have hin := (inBox_iff _ x).1 hx
  have hb := hin.2 dim hdl
  rw [lo_append hd, hi_append hd] at hb
  have split : ∀ (a b : Int), slab (M ++ [((0 : Int), p), (0, (n : Int))]) dim a b = slab (M ++ [((0 : Int), p)]) dim a b ++ [(0, (n : Int))] := by
    intro a b
    unfold slab
    rw [show M ++ [((0 : Int), p), (0, (n : Int))] = (M ++ [((0 : Int), p)]) ++ [(0, (n : Int))] by simp, List.set_append_left _ _ hdl]
  have slabIn : ∀ (a b : Int), a ≤ x.getD dim 0 + s → x.getD dim 0 + s < b →
      InBox (slab (M ++ [((0 : Int), p), (0, (n : Int))]) dim a b) (moveBy x dim s ++ [(j : Int)]) := by
    intro a b h1 h2
    rw [split]
    refine (inBox_snoc (by rw [moveBy_length]; simp [slab, hlen])).2 ⟨?_, by omega, by omega⟩
    rw [inBox_slab hdl]
    refine ⟨by rw [moveBy_length]; exact hin.1, ?_, ?_, ?_⟩
    · rw [moveBy_getD (by omega), if_pos rfl]; exact h1
    · rw [moveBy_getD (by omega), if_pos rfl]; exact h2
    · intro k hk hne
      rw [moveBy_getD (by omega), if_neg hne]; exact hin.2 k hk
  have comp : component (moveBy x dim s ++ [(j : Int)]) = j := by simp [component]
  have getS : (moveBy x dim s ++ [(j : Int)]).getD dim 0 = x.getD dim 0 + s := by
    rw [List.getD_eq_getElem?_getD, List.getElem?_append_left (by rw [moveBy_length]; omega), ← List.getD_eq_getElem?_getD, moveBy_getD (by omega), if_pos rfl]
  have move : ∀ (r : Int), moveBy (moveBy x dim s ++ [(j : Int)]) dim r = moveBy x dim (s + r) ++ [(j : Int)] := by
    intro r
    rw [moveBy_append (by rw [moveBy_length]; omega), moveBy_moveBy]
  by_cases hB : Beyond M x dim s
  swap
  · have hB' : lo M dim ≤ x.getD dim 0 + s ∧ x.getD dim 0 + s < hi M dim := not_not.1 hB
    refine ⟨fun h => absurd h.1 hB, fun _ => ?_⟩
    unfold image imageShift
    rw [if_pos hB']
    refine F.inside _ ?_
    rw [show M ++ [((0 : Int), p), (0, (n : Int))] = (M ++ [((0 : Int), p)]) ++ [(0, (n : Int))] by simp]
    refine (inBox_snoc (by rw [moveBy_length]; exact hin.1)).2 ⟨inBox_moved hx hdl ?_ ?_, by omega, by omega⟩
    · rw [lo_append hd]; exact hB'.1
    · rw [hi_append hd]; exact hB'.2
  have hgh : FaceGhost 2 (M ++ [((0 : Int), p), (0, (n : Int))]) dim (moveBy x dim s ++ [(j : Int)]) := by
    by_cases c : x.getD dim 0 + s < lo M dim
    · left; unfold LowGhost; rw [hlo]; exact slabIn _ _ (by omega) (by omega)
    · right; unfold UpGhost; rw [hhi]
      have : hi M dim ≤ x.getD dim 0 + s := by
        by_contra hne; exact hB ⟨by omega, by omega⟩
      exact slabIn _ _ (by omega) (by omega)
  have hlow : LowGhost 2 (M ++ [((0 : Int), p), (0, (n : Int))]) dim (moveBy x dim s ++ [(j : Int)]) ↔ x.getD dim 0 + s < lo M dim := by
    constructor
    · intro h
      unfold LowGhost at h
      rw [inBox_slab hdl', hlo, getS] at h
      exact h.2.2.1
    · intro h
      unfold LowGhost; rw [hlo]; exact slabIn _ _ (by omega) (by omega)
  by_cases hws : dim ∈ ws
  · have him : mirrorImage 2 (M ++ [((0 : Int), p), (0, (n : Int))]) dim (moveBy x dim s ++ [(j : Int)]) = image M ws x dim s ++ [(j : Int)] := by
      unfold mirrorImage image imageShift
      simp only [hlow, hlo, hhi]
      unfold Beyond at hB
      simp only [if_neg hB, hws, decide_true, if_true]
      split_ifs
      · rw [modify_eq_moveBy (by simp [moveBy_length]; omega), move, getS]
        congr 2; ring
      · rw [modify_eq_moveBy (by simp [moveBy_length]; omega), move, getS]
        congr 2; ring
    constructor
    · rintro ⟨_, _, hf⟩
      rw [F.wall_flip dim hws _ hgh (by rw [comp]; exact hf), him]
    · intro hf
      have hf : ¬ flip j := fun h => hf ⟨hB, hws, h⟩
      rw [F.wall_keep dim hws _ hgh (by rw [comp]; exact hf), him]
  · have him : periodicImage 2 (M ++ [((0 : Int), p), (0, (n : Int))]) dim (moveBy x dim s ++ [(j : Int)]) = image M ws x dim s ++ [(j : Int)] := by
      unfold periodicImage image imageShift
      simp only [hlow, hlo, hhi]
      unfold Beyond at hB
      simp only [if_neg hB, hws, decide_false, if_false, Bool.false_eq_true]
      split_ifs <;> rw [move]
    refine ⟨fun h => absurd h.2.1 hws, fun _ => ?_⟩
    rw [F.wrap dim (hc.resolve_left hws) _ hgh, him]

/-! ### Symmetries -/

/-- A relation between mesh cells that the stencils respect. -/
structure Symmetry (M : Box) (p : Int) (ws : List Nat) (R : Cell → Cell → Prop) : Prop where
  mesh : ∀ {x y}, R x y → InBox (M ++ [(0, p)]) x ∧ InBox (M ++ [(0, p)]) y
  image : ∀ {x y}, R x y → ∀ {dim : Nat}, dim < M.length → ∀ {s : Int}, -2 ≤ s → s ≤ 2 → R (image M ws x dim s) (image M ws y dim s)
  side : ∀ {x y}, R x y → ∀ {dim : Nat}, dim ∈ ws → ∀ {s : Int}, -2 ≤ s → s ≤ 2 → (Beyond M x dim s ↔ Beyond M y dim s)

/-- Two relations between mesh cells: what cells related by `R'` read is related by `R`. -/
structure Reads (M : Box) (p : Int) (ws : List Nat) (R R' : Cell → Cell → Prop) : Prop where
  mesh : ∀ {x y}, R x y → InBox (M ++ [(0, p)]) x ∧ InBox (M ++ [(0, p)]) y
  sub : ∀ {x y}, R' x y → R x y
  image : ∀ {x y}, R' x y → ∀ {dim : Nat}, dim < M.length → ∀ {s : Int}, -2 ≤ s → s ≤ 2 → R (image M ws x dim s) (image M ws y dim s)
  side : ∀ {x y}, R' x y → ∀ {dim : Nat}, dim ∈ ws → ∀ {s : Int}, -2 ≤ s → s ≤ 2 → (Beyond M x dim s ↔ Beyond M y dim s)

theorem Symmetry.reads {R : Cell → Cell → Prop} (Y : Symmetry M p ws R) : Reads M p ws R R := ⟨Y.mesh, id, Y.image, Y.side⟩

theorem Reads.mesh' {R R' : Cell → Cell → Prop} (Y : Reads M p ws R R') {x y : Cell} (h : R' x y) : InBox (M ++ [(0, p)]) x ∧ InBox (M ++ [(0, p)]) y := Y.mesh (Y.sub h)

/-- Two fields agree in related cells. -/
def AgreeBy (R : Cell → Cell → Prop) (n : Nat) (u v : Cell → α) : Prop := ∀ ⦃x y⦄, R x y → ∀ ⦃j : Nat⦄, j < n → u (x ++ [(j : Int)]) = v (y ++ [(j : Int)])

/-- Two fields agree on the stencils of related cells. -/
def AgreeAround (M : Box) (R : Cell → Cell → Prop) (n : Nat) (u v : Cell → α) : Prop :=
  ∀ ⦃x y⦄, R x y → ∀ ⦃dim : Nat⦄, dim < M.length → ∀ ⦃s : Int⦄, -2 ≤ s → s ≤ 2 → ∀ ⦃j : Nat⦄, j < n →
    u (moveBy x dim s ++ [(j : Int)]) = v (moveBy y dim s ++ [(j : Int)])

variable {R R' : Cell → Cell → Prop} {n : Nat}

theorem AgreeBy.mono {u v : Cell → α} (h : AgreeBy R n u v) (hs : ∀ {x y}, R' x y → R x y) : AgreeBy R' n u v := fun _ _ hR _ hj => h (hs hR) hj

theorem filled_agree (Y : Reads M p ws R R') {flip : Int → Prop} {ps : List Nat} (hw : ∀ d < M.length, 2 ≤ hi M d - lo M d) (hc : ∀ d < M.length, d ∈ ws ∨ d ∈ ps)
    {u u' v v' : Cell → α} (F : Filled M [(0, p), (0, (n : Int))] ws flip ps u u') (G : Filled M [(0, p), (0, (n : Int))] ws flip ps v v') (h : AgreeBy R n u v) :
    AgreeAround M R' n u' v' ∧ AgreeBy R n u' v' := by
  constructor
  · intro x y hR dim hd s h1 h2 j hj
    obtain ⟨a1, a2⟩ := filled_image F (Y.mesh' hR).1 hd (hw dim hd) (hc dim hd) h1 h2 hj
    obtain ⟨b1, b2⟩ := filled_image G (Y.mesh' hR).2 hd (hw dim hd) (hc dim hd) h1 h2 hj
    have e := h (Y.image hR hd h1 h2) hj
    by_cases hf : Beyond M x dim s ∧ dim ∈ ws ∧ flip j
    · rw [a1 hf, b1 ⟨(Y.side hR hf.2.1 h1 h2).1 hf.1, hf.2⟩, e]
    · rw [a2 hf, b2 (fun h => hf ⟨(Y.side hR h.2.1 h1 h2).2 h.1, h.2⟩), e]
  · intro x y hR j hj
    have inb : ∀ {x}, InBox (M ++ [(0, p)]) x → InBox (M ++ [((0 : Int), p), (0, (n : Int))]) (x ++ [(j : Int)]) := by
      intro x hx
      rw [show M ++ [((0 : Int), p), (0, (n : Int))] = (M ++ [((0 : Int), p)]) ++ [(0, (n : Int))] by simp]
      exact (inBox_snoc hx.length_eq).2 ⟨hx, by omega, by omega⟩
    rw [F.inside _ (inb (Y.mesh hR).1), G.inside _ (inb (Y.mesh hR).2), h hR hj]

theorem faceFlux_congr2 (φ : List α → List α → List α) {u v : Cell → Nat → α} {dim : Nat} {x y : Cell}
    (h : ∀ t : Int, -2 ≤ t → t ≤ 1 → ∀ j < n, u (moveBy x dim t) j = v (moveBy y dim t) j) : faceFlux φ n u dim x = faceFlux φ n v dim y := by
  unfold faceFlux
  have e : ∀ j < n, FV.recon (u (moveBy x dim (-2)) j) (u (moveBy x dim (-1)) j) (u x j) (u (moveBy x dim 1) j) =
      FV.recon (v (moveBy y dim (-2)) j) (v (moveBy y dim (-1)) j) (v y j) (v (moveBy y dim 1) j) := by
    intro j hj
    have h0 := h 0 (by decide) (by decide) j hj
    rw [moveBy_zero, moveBy_zero] at h0
    rw [h _ (by decide) (by decide) j hj, h _ (by decide) (by decide) j hj, h0, h _ (by decide) (by decide) j hj]
  simp only []
  congr 1 <;>
  · refine List.map_congr_left fun j hj => ?_
    rw [e j (by simpa using hj)]

theorem fvUpdate_agree {u v : Cell → α} (h : AgreeAround M R n u v) {x y : Cell} (hR : R x y) (φ : Nat → List α → List α → List α) (dx : Nat → α) {dims : List Nat}
    (hd : ∀ d ∈ dims, d < M.length) (j : Nat) (r : α) :
    fvUpdate φ n (fun x j => u (x ++ [(j : Int)])) dx dims x j r = fvUpdate φ n (fun x j => v (x ++ [(j : Int)])) dx dims y j r := by
  unfold fvUpdate
  induction dims generalizing r with
  | nil => rfl
  | cons d ds ih =>
    simp only [List.foldl_cons]
    have hdl := hd d (by simp)
    have e1 : faceFlux (φ d) n (fun x j => u (x ++ [(j : Int)])) d x = faceFlux (φ d) n (fun x j => v (x ++ [(j : Int)])) d y :=
      faceFlux_congr2 _ fun t h1 h2 j hj => h hR hdl h1 (by omega) hj
    have e2 : faceFlux (φ d) n (fun x j => u (x ++ [(j : Int)])) d (moveBy x d 1) = faceFlux (φ d) n (fun x j => v (x ++ [(j : Int)])) d (moveBy y d 1) := by
      refine faceFlux_congr2 _ fun t h1 h2 j hj => ?_
      rw [moveBy_moveBy, moveBy_moveBy]
      exact h hR hdl (by omega) (by omega) hj
    rw [e1, e2]
    exact ih (fun d h => hd d (by simp [h])) _

/-! ### The time steps -/

theorem gasRate_agree (hM : ∀ {x y}, R x y → InBox (M ++ [(0, p)]) x ∧ InBox (M ++ [(0, p)]) y) {dx : Nat → α} {gamma : α} {u v r r' : Cell → α} (h : AgreeAround M R 5 u v) (hr : GasRate M p dx gamma u r)
    (hr' : GasRate M p dx gamma v r') : AgreeBy R 5 r r' := by
  intro x y hR j hj
  rw [hr x (hM hR).1 j hj, hr' y (hM hR).2 j hj]
  exact fvUpdate_agree h hR _ _ (by simp) _ _

theorem lightRate_agree (hM : ∀ {x y}, R x y → InBox (M ++ [(0, p)]) x ∧ InBox (M ++ [(0, p)]) y) {dx : Nat → α} {c : α} {u v r r' : Cell → α} (h : AgreeAround M R 6 u v) (hr : LightRate M p dx c u r)
    (hr' : LightRate M p dx c v r') : AgreeBy R 6 r r' := by
  intro x y hR j hj
  rw [hr x (hM hR).1 j hj, hr' y (hM hR).2 j hj]
  refine fvUpdate_agree h hR _ _ ?_ _ _
  intro d hd; simp at hd; omega

theorem rk_agree {k : Nat} {t : α} {u0 u r v w0 w s z : Cell → α} (h0 : AgreeBy R n u0 w0) (h : AgreeBy R n u w) (hr : AgreeBy R n r s)
    (e : ∀ x, v x = rkStage k t (u0 x) (u x) (r x)) (e' : ∀ x, z x = rkStage k t (w0 x) (w x) (s x)) : AgreeBy R n v z := by
  intro x y hR j hj
  rw [e, e', h0 hR hj, h hR hj, hr hR hj]

/-- Three stages read one after the other. -/
structure ReadsStep (M : Box) (p : Int) (ws : List Nat) (R R' : Cell → Cell → Prop) : Prop where
  via : ∃ R1 R2, Reads M p ws R R1 ∧ Reads M p ws R1 R2 ∧ Reads M p ws R2 R'

theorem Symmetry.step {R : Cell → Cell → Prop} (Y : Symmetry M p ws R) : ReadsStep M p ws R R := ⟨_, _, Y.reads, Y.reads, Y.reads⟩

theorem soloStep_agree (Y : ReadsStep M p ws R R') {flip : Int → Prop} {ps : List Nat} (hw : ∀ d < M.length, 2 ≤ hi M d - lo M d) (hc : ∀ d < M.length, d ∈ ws ∨ d ∈ ps)
    {Rate : (Cell → α) → (Cell → α) → Prop}
    (hr : ∀ {R : Cell → Cell → Prop}, (∀ {x y}, R x y → InBox (M ++ [(0, p)]) x ∧ InBox (M ++ [(0, p)]) y) → ∀ {u v r r' : Cell → α}, AgreeAround M R n u v → Rate u r → Rate v r' → AgreeBy R n r r')
    {t : α} {q q' v v' : Cell → α} (H : SoloStep M p n ws flip ps Rate t q q') (K : SoloStep M p n ws flip ps Rate t v v') (h : AgreeBy R n q v) : AgreeBy R' n q' v' := by
  obtain ⟨R1, R2, Y0, Y1, Y2⟩ := Y.via
  obtain ⟨q0, r0, q1, q1', r1, q2, q2', r2, H0, H1, H2⟩ := H
  obtain ⟨v0, s0, v1, v1', s1, v2, v2', s2, K0, K1, K2⟩ := K
  have a0 := filled_agree Y0 hw hc H0.fill K0.fill h
  have c1 := a0.2.mono Y0.sub
  have b0 : AgreeBy R1 n q1 v1 := rk_agree c1 c1 (hr Y0.mesh' a0.1 H0.rates K0.rates) H0.next K0.next
  have a1 := filled_agree Y1 hw hc H1.fill K1.fill b0
  have c2 := c1.mono Y1.sub
  have b1 : AgreeBy R2 n q2 v2 := rk_agree c2 (a1.2.mono Y1.sub) (hr Y1.mesh' a1.1 H1.rates K1.rates) H1.next K1.next
  have a2 := filled_agree Y2 hw hc H2.fill K2.fill b1
  exact rk_agree (c2.mono Y2.sub) (a2.2.mono Y2.sub) (hr Y2.mesh' a2.1 H2.rates K2.rates) H2.next K2.next

theorem fluidRate_agree (hM : ∀ {x y}, R x y → InBox (M ++ [(0, p)]) x ∧ InBox (M ++ [(0, p)]) y) {dx : Nat → α} {gamma com : α} {u w v z r r' : Cell → α} (h : AgreeAround M R 5 u v) (hb : AgreeBy R 5 u v) (hf : AgreeBy R 6 w z)
    (hr : FluidRate M p dx gamma com u w r) (hr' : FluidRate M p dx gamma com v z r') : AgreeBy R 5 r r' := by
  obtain ⟨r0, a, L⟩ := hr
  obtain ⟨r0', a', L'⟩ := hr'
  intro x y hR j hj
  have hx := (hM hR).1
  have hy := (hM hR).2
  have e0 : ∀ j : Nat, j < 5 → r0 (x ++ [(j : Int)]) = r0' (y ++ [(j : Int)]) := by
    intro j hj
    rw [a x hx j hj, a' y hy j hj]
    exact fvUpdate_agree h hR _ _ (by simp) _ _
  have U := fun (k : Nat) (hk : k < 5) => hb hR hk
  have W := fun (k : Nat) (hk : k < 6) => hf hR hk
  have u0 := U 0 (by decide); have u1 := U 1 (by decide); have u2 := U 2 (by decide); have u3 := U 3 (by decide)
  have w0 := W 0 (by decide); have w1 := W 1 (by decide); have w2 := W 2 (by decide); have w3 := W 3 (by decide); have w4 := W 4 (by decide); have w5 := W 5 (by decide)
  have r1 := e0 1 (by decide); have r2 := e0 2 (by decide); have r3 := e0 3 (by decide); have r4 := e0 4 (by decide)
  push_cast at u0 u1 u2 u3 w0 w1 w2 w3 w4 w5 r1 r2 r3 r4
  have ne : ∀ {x : Cell}, ∀ x' (k : Int), InBox (M ++ [(0, p)]) x' → 1 ≤ k → k ≤ 4 → x ++ [((0 : Nat) : Int)] ≠ x' ++ [k] := by
    intro x x' k _ h1 h2
    exact snoc_ne (by simp; omega)
  match j, hj with
  | 0, _ => rw [L.rest _ ne, L'.rest _ ne]; exact e0 0 (by decide)
  | 1, _ => push_cast; rw [L.momX x hx, L'.momX y hy, r1, u0, u2, u3, w0, w5, w4]
  | 2, _ => push_cast; rw [L.momY x hx, L'.momY y hy, r2, u0, u3, u1, w1, w3, w5]
  | 3, _ => push_cast; rw [L.momZ x hx, L'.momZ y hy, r3, u0, u1, u2, w2, w4, w3]
  | 4, _ => push_cast; rw [L.energy x hx, L'.energy y hy, r4, u1, u2, u3, w0, w1, w2]

theorem fieldRate_agree (hM : ∀ {x y}, R x y → InBox (M ++ [(0, p)]) x ∧ InBox (M ++ [(0, p)]) y) {dx : Nat → α} {c : α} {m1 m2 : α} {mults : List α} {u1 u2 v1 v2 w z r r' : Cell → α} (hm : mults = [m1, m2]) (h : AgreeAround M R 6 w z)
    (h1 : AgreeBy R 5 u1 v1) (h2 : AgreeBy R 5 u2 v2)
    (hr : FieldRate M p dx c (mults.zip [u1, u2]) w r) (hr' : FieldRate M p dx c (mults.zip [v1, v2]) z r') : AgreeBy R 6 r r' := by
  subst hm
  obtain ⟨r0, a, C⟩ := hr
  obtain ⟨r0', a', C'⟩ := hr'
  intro x y hR j hj
  have hx := (hM hR).1
  have hy := (hM hR).2
  have e0 : r0 (x ++ [(j : Int)]) = r0' (y ++ [(j : Int)]) := by
    rw [a x hx j hj, a' y hy j hj]
    refine fvUpdate_agree h hR _ _ ?_ _ _
    intro d hd; simp at hd; omega
  by_cases c : j < 3
  · rw [C.field x j hx (by omega) (by omega), C'.field y j hy (by omega) (by omega), e0]
    have a1 := h1 hR (show j + 1 < 5 by omega)
    have a2 := h2 hR (show j + 1 < 5 by omega)
    push_cast at a1 a2
    simp only [List.zip_cons_cons, List.zip_nil_right, List.foldl_cons, List.foldl_nil, a1, a2]
  · have ne : ∀ {x : Cell}, ∀ x' (k : Int), InBox (M ++ [(0, p)]) x' → 0 ≤ k → k < 3 → x ++ [(j : Int)] ≠ x' ++ [k] := by
      intro x x' k _ h1 h2
      exact snoc_ne (by omega)
    rw [C.rest _ ne, C'.rest _ ne, e0]

/-- Two states agree in related cells. -/
structure StateAgree (R : Cell → Cell → Prop) (s t : State α) : Prop where
  e : AgreeBy R 5 s.e t.e
  i : AgreeBy R 5 s.i t.i
  f : AgreeBy R 6 s.f t.f

theorem StateAgree.mono {s t : State α} (h : StateAgree R s t) (hs : ∀ {x y}, R' x y → R x y) : StateAgree R' s t := ⟨h.e.mono hs, h.i.mono hs, h.f.mono hs⟩

theorem plasmaStage_agree {P : Plasma α} {grid : Rectilinear α} (Y : Reads grid.rng.dims p ws R R') {ps : List Nat} (hw : ∀ d < grid.rng.dims.length, 2 ≤ hi grid.rng.dims d - lo grid.rng.dims d)
    (hc : ∀ d < grid.rng.dims.length, d ∈ ws ∨ d ∈ ps) (hm : P.mults.length = 2) {t : α} {k : Nat} {a0 a a' ra an b0 b b' rb bn : State α}
    (H : PlasmaStage P grid p ws ps t k a0 a a' ra an) (K : PlasmaStage P grid p ws ps t k b0 b b' rb bn) (h : StateAgree R a b) :
    StateAgree R a' b' ∧ (StateAgree R' a0 b0 → StateAgree R' an bn) := by
  obtain ⟨m1, m2, hm⟩ : ∃ m1 m2, P.mults = [m1, m2] := by
    match h : P.mults, hm with
    | [m1, m2], _ => exact ⟨m1, m2, rfl⟩
  have fe := filled_agree (n := 5) Y hw hc H.fill_e K.fill_e h.e
  have fi := filled_agree (n := 5) Y hw hc H.fill_i K.fill_i h.i
  have ff := filled_agree (n := 6) Y hw hc H.fill_f K.fill_f h.f
  have ge := fe.2.mono Y.sub
  have gi := fi.2.mono Y.sub
  have gf := ff.2.mono Y.sub
  refine ⟨⟨fe.2, fi.2, ff.2⟩, fun h0 => ⟨?_, ?_, ?_⟩⟩
  · exact rk_agree h0.e ge (fluidRate_agree Y.mesh' fe.1 ge gf H.rate_e K.rate_e) H.next_e K.next_e
  · exact rk_agree h0.i gi (fluidRate_agree Y.mesh' fi.1 gi gf H.rate_i K.rate_i) H.next_i K.next_i
  · exact rk_agree h0.f gf (fieldRate_agree Y.mesh' hm ff.1 ge gi H.rate_f K.rate_f) H.next_f K.next_f

theorem plasmaStep_agree {P : Plasma α} {grid : Rectilinear α} (Y : ReadsStep grid.rng.dims p ws R R') {ps : List Nat} (hw : ∀ d < grid.rng.dims.length, 2 ≤ hi grid.rng.dims d - lo grid.rng.dims d)
    (hc : ∀ d < grid.rng.dims.length, d ∈ ws ∨ d ∈ ps) (hm : P.mults.length = 2) {t : α} {q q' v v' : State α}
    (H : PlasmaStep P grid p ws ps t q q') (K : PlasmaStep P grid p ws ps t v v') (h : StateAgree R q v) : StateAgree R' q' v' := by
  obtain ⟨R1, R2, Y0, Y1, Y2⟩ := Y.via
  obtain ⟨q0, r0, q1, q1', r1, q2, q2', r2, H0, H1, H2⟩ := H
  obtain ⟨v0, s0, v1, v1', s1, v2, v2', s2, K0, K1, K2⟩ := K
  have a0 := plasmaStage_agree Y0 hw hc hm H0 K0 h
  have c1 := a0.1.mono Y0.sub
  have a1 := plasmaStage_agree Y1 hw hc hm H1 K1 (a0.2 c1)
  have c2 := c1.mono Y1.sub
  exact (plasmaStage_agree Y2 hw hc hm H2 K2 (a1.2 c2)).2 (c2.mono Y2.sub)

/-! ### Examples of symmetries -/

/-- Equality. -/
theorem symmetry_eq (hw : ∀ d < M.length, 2 ≤ hi M d - lo M d) : Symmetry M p ws (fun x y => InBox (M ++ [(0, p)]) x ∧ x = y) := by
  refine ⟨?_, ?_, ?_⟩
  · rintro x y ⟨h, rfl⟩; exact ⟨h, h⟩
  · rintro x y ⟨h, rfl⟩ dim hd s h1 h2
    exact ⟨image_mesh h hd (hw dim hd) h1 h2, rfl⟩
  · rintro x y ⟨h, rfl⟩ dim hd s h1 h2
    exact Iff.rfl

/-- Translation by `t` cells along a periodic direction `d`, modulo the period. -/
def Shifted (M : Box) (p : Int) (d : Nat) (t : Int) (x y : Cell) : Prop :=
  InBox (M ++ [(0, p)]) x ∧ InBox (M ++ [(0, p)]) y ∧ ∃ m : Int, y = moveBy x d (t + m * (hi M d - lo M d))

theorem imageShift_wrap (l h a s : Int) : ∃ m : Int, imageShift false l h a s = s + m * (h - l) := by
  unfold imageShift
  split_ifs with h1 h2
  · exact ⟨0, by ring⟩
  · exact absurd h2 (by simp)
  · exact absurd h2 (by simp)
  · exact ⟨1, by ring⟩
  · exact ⟨-1, by ring⟩

theorem symmetry_shift (hw : ∀ d < M.length, 2 ≤ hi M d - lo M d) {d : Nat} (hd : d < M.length) (hn : d ∉ ws) (t : Int) : Symmetry M p ws (Shifted M p d t) := by
  refine ⟨fun h => ⟨h.1, h.2.1⟩, ?_, ?_⟩
  · rintro x y ⟨hx, hy, m, e⟩ dim hdim s h1 h2
    refine ⟨image_mesh hx hdim (hw dim hdim) h1 h2, image_mesh hy hdim (hw dim hdim) h1 h2, ?_⟩
    have hlen : x.length = M.length + 1 := by rw [hx.length_eq]; simp
    by_cases c : dim = d
    · subst c
      unfold image
      rw [show decide (dim ∈ ws) = false by simpa using hn]
      obtain ⟨m1, e1⟩ := imageShift_wrap (lo M dim) (hi M dim) (x.getD dim 0) s
      obtain ⟨m2, e2⟩ := imageShift_wrap (lo M dim) (hi M dim) (y.getD dim 0) s
      refine ⟨m + m2 - m1, ?_⟩
      rw [e1, e2, e, moveBy_moveBy, moveBy_moveBy]
      congr 1; ring
    · refine ⟨m, ?_⟩
      unfold image
      have : y.getD dim 0 = x.getD dim 0 := by rw [e, moveBy_getD (by omega), if_neg c]
      rw [this, e, moveBy_comm (by omega) (by omega)]
  · rintro x y ⟨hx, hy, m, e⟩ dim hdim s h1 h2
    have hlen : x.length = M.length + 1 := by rw [hx.length_eq]; simp
    have : y.getD dim 0 = x.getD dim 0 := by rw [e, moveBy_getD (by omega), if_neg (by rintro rfl; exact hn hdim)]
    unfold Beyond
    rw [this]

end
end QK
