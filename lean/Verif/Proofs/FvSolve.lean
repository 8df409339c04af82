import Verif.Proofs.FiniteVolume
/- The finite-volume solvers, all directions. -/
namespace QK
open Spec

namespace FV
open Prog
variable {α : Type} [Arith α] {q rhs : Chunk α} {g : Int} {M : Box} {p n : Nat} {u : Cell → Nat → α}

theorem isFlux_fluxOf {flux : Flux α} (h : ∀ l r, l.length = n → r.length = n → ∃ v, flux l r = .ok v ∧ v.length = n) :
    IsFlux n flux (fluxOf flux) := by
  intro l r hl hr
  obtain ⟨v, h1, h2⟩ := h l r hl hr
  unfold fluxOf
  rw [h1]; exact ⟨rfl, h2⟩

/-- All directions in turn. -/
theorem dirs_spec {sweep : Chunk α → Nat → Res (Chunk α)} {φ : Nat → List α → List α → List α} {dx : Nat → α} :
    ∀ {dims : List Nat},
    (∀ dim ∈ dims, ∀ rhs : Chunk α, rhs.Layout g M [(0, (p : Int)), (0, (n : Int))] →
      ∃ rhs', sweep rhs dim = .ok rhs' ∧ rhs.SameShape rhs' ∧ rhs'.Layout g M [(0, (p : Int)), (0, (n : Int))] ∧
      ∀ x, InBox (M ++ [(0, (p : Int))]) x → ∀ j < n,
        rhs'.arr.val (x ++ [(j : Int)]) = (rhs.arr.val (x ++ [(j : Int)])).map (fun r =>
          r + (faceFlux (φ dim) n u dim x).getD j (Arith.lit 0) / dx dim -
            (faceFlux (φ dim) n u dim (moveBy x dim 1)).getD j (Arith.lit 0) / dx dim)) →
    ∀ rhs : Chunk α, rhs.Layout g M [(0, (p : Int)), (0, (n : Int))] →
    ∃ rhs', dims.foldlM sweep rhs = .ok rhs' ∧ rhs.SameShape rhs' ∧ rhs'.Layout g M [(0, (p : Int)), (0, (n : Int))] ∧
      ∀ x, InBox (M ++ [(0, (p : Int))]) x → ∀ j < n,
        rhs'.arr.val (x ++ [(j : Int)]) = (rhs.arr.val (x ++ [(j : Int)])).map (fvUpdate φ n u dx dims x j) := by
  intro dims
  induction dims with
  | nil =>
    intro _ rhs hr
    refine ⟨rhs, rfl, .refl _, hr, ?_⟩
    intro x _ j _
    show _ = Option.map (fun r => r) _
    rw [Option.map_id']
  | cons dim dims ih =>
    intro h rhs hr
    obtain ⟨r1, e1, e2, e3, e4⟩ := h dim (List.mem_cons_self ..) rhs hr
    obtain ⟨r2, f1, f2, f3, f4⟩ := ih (fun d hd => h d (List.mem_cons_of_mem _ hd)) r1 e3
    refine ⟨r2, ?_, e2.trans f2, f3, ?_⟩
    · rw [List.foldlM_cons, e1]; exact f1
    · intro x hx j hj
      rw [f4 x hx j hj, e4 x hx j hj, Option.map_map]; rfl

theorem solveMp_spec (hq : q.Layout g M [(0, (p : Int)), (0, (n : Int))]) (hr : rhs.Layout g M [(0, (p : Int)), (0, (n : Int))])
    (hM : Pos M) (hp : 1 ≤ p) (hn : 2 ≤ n) (hg : 2 ≤ g) (hu : q.Holds (grow g M ++ [(0, (p : Int))]) n u)
    {dims : List Nat} (hd : ∀ dim ∈ dims, dim < M.length) {flux : Nat → Flux α} {φ : Nat → List α → List α → List α}
    (hφ : ∀ dim ∈ dims, IsFlux n (flux dim) (φ dim))
    {grid : Rectilinear α} {dx : Nat → α} (hdx : ∀ dim ∈ dims, grid.dx (dim : Nat) = .ok (dx dim)) :
    ∃ rhs', dims.foldlM (fun r dim => sweepMp n (flux dim) grid q r dim) rhs = .ok rhs' ∧ rhs.SameShape rhs' ∧
      rhs'.Layout g M [(0, (p : Int)), (0, (n : Int))] ∧
      ∀ x, InBox (M ++ [(0, (p : Int))]) x → ∀ j < n,
        rhs'.arr.val (x ++ [(j : Int)]) = (rhs.arr.val (x ++ [(j : Int)])).map (fvUpdate φ n u dx dims x j) :=
  dirs_spec (fun dim hdim _ hr => sweepMp_spec hq hr hM hp hn hg hu (hd dim hdim) (hφ dim hdim) (hdx dim hdim)) rhs hr

theorem solveFast_spec (hq : q.Layout g M [(0, (p : Int)), (0, (n : Int))]) (hr : rhs.Layout g M [(0, (p : Int)), (0, (n : Int))])
    (hM : Pos M) (hp : 1 ≤ p) (hn : 2 ≤ n) (hg : 2 ≤ g) (hu : q.Holds (grow g M ++ [(0, (p : Int))]) n u)
    {dims : List Nat} (hd : ∀ dim ∈ dims, dim < M.length) {flux : Nat → Flux α} {φ : Nat → List α → List α → List α}
    (hφ : ∀ dim ∈ dims, IsFlux n (flux dim) (φ dim))
    {grid : Rectilinear α} {dx : Nat → α} (hdx : ∀ dim ∈ dims, grid.dx (dim : Nat) = .ok (dx dim)) :
    ∃ rhs', dims.foldlM (fun r dim => sweepFast n (flux dim) grid q r dim) rhs = .ok rhs' ∧ rhs.SameShape rhs' ∧
      rhs'.Layout g M [(0, (p : Int)), (0, (n : Int))] ∧
      ∀ x, InBox (M ++ [(0, (p : Int))]) x → ∀ j < n,
        rhs'.arr.val (x ++ [(j : Int)]) = (rhs.arr.val (x ++ [(j : Int)])).map (fvUpdate φ n u dx dims x j) :=
  dirs_spec (fun dim hdim _ hr => sweepFast_spec hq hr hM hp hn hg hu (hd dim hdim) (hφ dim hdim) (hdx dim hdim)) rhs hr

/-- A chunk always holds some field. -/
theorem exists_field (hq : q.Layout g M [(0, (p : Int)), (0, (n : Int))]) :
    ∃ u, q.Holds (grow g M ++ [(0, (p : Int))]) n u := by
  refine ⟨fun x j => (q.arr.val (x ++ [(j : Int)])).getD (Arith.lit 0), ?_⟩
  intro x hx j hj
  have hin : InBox q.arr.rng.dims (x ++ [(j : Int)]) := by
    rw [hq.dims, layout_split]
    unfold InBox at hx ⊢
    refine List.rel_append hx ?_
    simpa using hj
  obtain ⟨v, hv⟩ := IFace.val_isSome hq.wf (by rw [hq.dims]; simp) hin
  simp only [hv]; rfl

/-- If the flux function is undefined for all states, so is the sweep. -/
theorem sweepMp_ub (hq : q.Layout g M [(0, (p : Int)), (0, (n : Int))])
    (hM : Pos M) (hp : 1 ≤ p) (hn : 2 ≤ n) (hg : 2 ≤ g) {dim : Nat} (hd : dim < M.length) {flux : Flux α}
    (hf : ∀ l r, ∃ w, flux l r = .ub w) {grid : Rectilinear α} {d : α} (hdx : grid.dx dim = .ok d) :
    ∃ w, sweepMp n flux grid q rhs dim = .ub w := by
  obtain ⟨u, hu⟩ := exists_field hq
  have hpp : Pos (M ++ [((0 : Int), (p : Int))]) := by
    rw [pos_append]; exact ⟨hM, by intro d hd; simp at hd; subst hd; simp; omega⟩
  have hgp : Pos (grow g M ++ [((0 : Int), (p : Int))]) := by
    rw [pos_append]; exact ⟨pos_grow (by omega) hM, by intro d hd; simp at hd; subst hd; simp; omega⟩
  obtain ⟨c1, c2⟩ := pos_corner hpp
  have b3 := offset_mono hgp (by simp [grow]) (corner_le c1).2
  unfold sweepMp
  rw [itersMp_eq hq hM hp (by omega) (by omega) hd hdx, Res.ok_bind, steps_eq_range hn (by omega)]
  generalize hK0 : offset (grow g M ++ [(0, (p : Int))]) ((M ++ [(0, (p : Int))]).map Prod.fst) = K0 at *
  generalize offset (grow g M ++ [(0, (p : Int))]) ((M ++ [(0, (p : Int))]).map fun d : Int × Int => d.2 - 1) = K1 at *
  obtain ⟨t, ht⟩ : ∃ t, (K1 - K0 + 1).toNat = t + 1 := ⟨(K1 - K0).toNat, by omega⟩
  rw [ht, List.range_succ_eq_map, List.map_cons, List.map_cons]
  unfold runOn
  rw [runAll_cons]
  have hmv : ∀ t : Int, -2 ≤ t → t ≤ 2 →
      InBox (grow g M ++ [((0 : Int), (p : Int))]) (moveBy ((M ++ [(0, (p : Int))]).map Prod.fst) dim t) := by
    intro t h1 h2
    exact inBox_moveBy_grow c1 hd (by omega) (by omega)
  have hread : ∀ t : Int, -2 ≤ t → t ≤ 2 → ∀ j < n, ∀ y : Int,
      y = n * K0 + t * (n * boxVolume ((grow g M ++ [(0, (p : Int))]).drop (dim + 1))) + (j : Int) →
      ∃ v, Mem.of [q.arr.data, rhs.arr.data] (0, y) = some v := by
    intro t h1 h2 j hj y hy
    have h0 := (offset_nonneg hgp (hmv t h1 h2)).1
    have hval := hu _ (hmv t h1 h2) j hj
    unfold IFace.val at hval
    rw [hq.dims, layout_split, offset_snoc (by rw [(hmv t h1 h2).length_eq])] at hval
    have e : y = n * offset (grow g M ++ [(0, (p : Int))]) (moveBy ((M ++ [(0, (p : Int))]).map Prod.fst) dim t) + j := by
      rw [hy, offset_moveBy (by simp [grow]) (by simp [grow]; omega), hK0]; ring
    rw [e, mem_of_zero (by positivity)]
    exact ⟨_, hval⟩
  have hwall : ∃ w, (iterMp n flux d (n * boxVolume ((grow g M ++ [(0, (p : Int))]).drop (dim + 1))) (n * K0 + n * ((0 : Nat) : Int))).run
      (Mem.of [q.arr.data, rhs.arr.data]) = .ub w := by
    simp only [Nat.cast_zero, mul_zero, add_zero]
    generalize hS : (n : Int) * boxVolume ((grow g M ++ [(0, (p : Int))]).drop (dim + 1)) = S at *
    unfold iterMp wall
    rw [run_bind, run_bind]
    rw [run_mapM_pure (g := fun j : Nat => recon (elem q.arr.data (n * K0 - S - S + j)) (elem q.arr.data (n * K0 - S + j))
      (elem q.arr.data (n * K0 + j)) (elem q.arr.data (n * K0 + S + j)))]
    · obtain ⟨w, hw⟩ := hf (((List.range n).map fun j : Nat => recon (elem q.arr.data (n * K0 - S - S + j)) (elem q.arr.data (n * K0 - S + j))
        (elem q.arr.data (n * K0 + j)) (elem q.arr.data (n * K0 + S + j))).map Prod.fst)
        (((List.range n).map fun j : Nat => recon (elem q.arr.data (n * K0 - S - S + j)) (elem q.arr.data (n * K0 - S + j))
        (elem q.arr.data (n * K0 + j)) (elem q.arr.data (n * K0 + S + j))).map Prod.snd)
      refine ⟨w, ?_⟩
      simp only [Res.ok_bind]
      rw [hw]; rfl
    · intro j hj
      rw [List.mem_range] at hj
      have rd : ∀ t : Int, -2 ≤ t → t ≤ 2 → ∀ y : Int, y = n * K0 + t * S + (j : Int) →
          (read (0, y) : Prog α α).run (Mem.of [q.arr.data, rhs.arr.data]) = .ok (elem q.arr.data y, Mem.of [q.arr.data, rhs.arr.data]) := by
        intro t h1 h2 y hy
        obtain ⟨v, hv⟩ := hread t h1 h2 j hj y hy
        refine run_read ?_
        have h0 : 0 ≤ y := by
          by_contra h
          simp [Mem.of, show y < 0 by omega] at hv
        rw [mem_of_zero h0] at hv ⊢
        simp [elem, hv]
      rw [run_bind_ok (rd (-2) (by decide) (by decide) _ (by ring)), run_bind_ok (rd (-1) (by decide) (by decide) _ (by ring)),
        run_bind_ok (rd 0 (by decide) (by decide) _ (by ring)), run_bind_ok (rd 1 (by decide) (by decide) _ (by ring))]
      rfl
  obtain ⟨w, hw⟩ := hwall
  exact ⟨w, by rw [hw]; rfl⟩

end FV

namespace Euler
variable {α : Type} [Arith α]

theorem hll_ok (gamma : α) {dim : Nat} (hd : dim ≤ 3) (l r : List α) (hl : l.length = 5) (hr : r.length = 5) :
    ∃ v, hll gamma dim l r = .ok v ∧ v.length = 5 := by
  match l, hl with
  | [l0, l1, l2, l3, l4], _ =>
    match r, hr with
    | [r0, r1, r2, r3, r4], _ =>
      have : dim = 0 ∨ dim = 1 ∨ dim = 2 ∨ dim = 3 := by omega
      rcases this with rfl | rfl | rfl | rfl <;> exact ⟨_, rfl, rfl⟩

theorem hll_isFlux (gamma : α) {dim : Nat} (hd : dim ≤ 3) : IsFlux 5 (hll gamma dim) (fluxOf (hll gamma dim)) :=
  FV.isFlux_fluxOf (hll_ok gamma hd)

/-- From the fifth dimension on the momentum component is outside the arrays of five. -/
theorem hll_ub (gamma : α) {dim : Nat} (hd : 4 ≤ dim) (l r : List α) : ∃ w, hll gamma dim l r = .ub w := by
  unfold hll
  split
  · rename_i l0 l1 l2 l3 l4 r0 r1 r2 r3 r4
    refine ⟨"vector index out of range", ?_⟩
    have hv : vget [l0, l1, l2, l3, l4] ((dim : Int) + 1) = .ub "vector index out of range" := by
      unfold vget
      rw [if_neg (by omega), List.getElem?_eq_none (by simp; omega)]
    simp only [hv]; rfl
  · exact ⟨_, rfl⟩

end Euler

namespace Maxwell
variable {α : Type} [Arith α]

theorem rusanov_ok (c : α) (dim : Nat) (l r : List α) (hl : l.length = 6) (hr : r.length = 6) :
    ∃ v, rusanov c dim l r = .ok v ∧ v.length = 6 := by
  match l, hl with
  | [l0, l1, l2, l3, l4, l5], _ =>
    match r, hr with
    | [r0, r1, r2, r3, r4, r5], _ =>
      match dim with
      | 0 => exact ⟨_, rfl, rfl⟩
      | 1 => exact ⟨_, rfl, rfl⟩
      | _ + 2 => exact ⟨_, rfl, rfl⟩

theorem rusanov_isFlux (c : α) (dim : Nat) : IsFlux 6 (rusanov c dim) (fluxOf (rusanov c dim)) :=
  FV.isFlux_fluxOf (rusanov_ok c dim)

end Maxwell
end QK
