import Verif.Spec.Sources
import Verif.Spec.Physics
import Verif.Model.ArithReal
import Verif.Proofs.Source
import Verif.Proofs.Solvers
import Verif.Proofs.Examples
/-
Properties of the source terms: C60, C61.
-/
namespace QK.Props
open Spec Solve

section
variable {α : Type} [Arith α] {S : VarId → Prop} {m : Mgr α}

/-- The variable is stored as `v`, or does not exist yet and `v` is what it will be created with. -/
def _root_.QK.Mgr.Initial (m : Mgr α) (id : VarId) (v : Cell → α) : Prop :=
  m.Stores id v ∨ m.contents id = none ∧ v = fun _ => Arith.lit 0

theorem requested_initial (h : m.Good S) {id : VarId} (hid : S id) {v : Cell → α} (hv : m.Initial id v) :
    ∃ c, m.requested (Arith.lit 0) [id] id = some c ∧ ∀ x, InBox (m.arrayBox id) x → c.arr.val x = some (v x) := by
  rcases hv with ⟨c, hc, hx⟩ | ⟨hn, rfl⟩
  · exact ⟨c, Mgr.requested_some _ hc _, hx⟩
  · refine ⟨Mgr.fresh (Arith.lit 0) m.grid.rng id, by unfold Mgr.requested; rw [hn]; simp, ?_⟩
    intro x hx
    obtain ⟨-, hl, hd⟩ := fresh_spec (Arith.lit 0 : α) h.mesh_ne h.mesh_pos (h.points id hid)
    have hb : (Mgr.fresh (Arith.lit 0 : α) m.grid.rng id).arr.rng.dims = m.arrayBox id := hl.dims
    obtain ⟨v, hv⟩ := IFace.val_isSome hl.wf (by rw [hb]; unfold Mgr.arrayBox; simp) (by rw [hb]; exact hx)
    rw [hv]
    have hm := List.mem_of_getElem? hv
    rw [hd] at hm
    rw [(List.mem_replicate.1 hm).2]

theorem requested_ne {id id' : VarId} (hne : id ≠ id') : m.requested (Arith.lit 0) [id'] id = m.contents id := by
  unfold Mgr.requested
  cases m.contents id with
  | some c => rfl
  | none => simp [hne]

/-- A field on the array positions from the values of an array. -/
theorem stores_update (h : m.Good S) {id : VarId} {c' : Chunk α} {a : Nat} (ha : m.addr id = some a)
    (hl : c'.Layout 2 m.grid.rng.dims [(0, id.basis.points), (0, (id.comps.length : Int))]) (v : Cell → α) :
    ∃ v', (m.store a c').Stores id v' ∧ (∀ y, InBox (m.arrayBox id) y → c'.arr.val y = some (v' y)) ∧
      ∀ y, ¬ InBox (m.arrayBox id) y → v' y = v y := by
  classical
  have hb : c'.arr.rng.dims = m.arrayBox id := hl.dims
  have key : ∀ y, InBox (m.arrayBox id) y → c'.arr.val y =
      some ((fun y => if InBox (m.arrayBox id) y then (c'.arr.val y).getD (v y) else v y) y) := by
    intro y hy
    simp only [if_pos hy]
    obtain ⟨r, hr⟩ := IFace.val_isSome hl.wf (by rw [hb]; unfold Mgr.arrayBox; simp) (by rw [hb]; exact hy)
    rw [hr]; rfl
  refine ⟨_, ⟨c', by rw [h.store_contents ha, Function.update_self], key⟩, key, ?_⟩
  intro y hy
  exact if_neg hy

/-! ## C60 -/

theorem holds_of_val {c : Chunk α} {g : Int} {M : Box} {p n : Nat} {f : Cell → α}
    (hf : ∀ y, InBox (grow g M ++ [(0, (p : Int)), (0, (n : Int))]) y → c.arr.val y = some (f y)) :
    c.Holds (grow g M ++ [(0, (p : Int))]) n (fun x j => f (x ++ [(j : Int)])) := by
  intro x hx j hj
  apply hf
  rw [FV.layout_split]
  exact (inBox_snoc hx.length_eq).2 ⟨hx, by omega, by omega⟩

/-- The effect of the Lorentz kernel on values. -/
theorem lorentz_spec {com : α} {fluid field rhs : Chunk α} {g : Int} {M : Box} {p nf ne : Nat} {u w v : Cell → α}
    (hf : fluid.Layout g M [(0, (p : Int)), (0, (nf : Int))]) (he : field.Layout g M [(0, (p : Int)), (0, (ne : Int))])
    (hr : rhs.Layout g M [(0, (p : Int)), (0, (nf : Int))]) (hM : Pos M) (hp : 1 ≤ p) (hnf : 5 ≤ nf) (hne : 6 ≤ ne) (hg : 0 ≤ g)
    (hu : ∀ y, InBox (grow g M ++ [(0, (p : Int)), (0, (nf : Int))]) y → fluid.arr.val y = some (u y))
    (hw : ∀ y, InBox (grow g M ++ [(0, (p : Int)), (0, (ne : Int))]) y → field.arr.val y = some (w y))
    (hv : ∀ y, InBox (grow g M ++ [(0, (p : Int)), (0, (nf : Int))]) y → rhs.arr.val y = some (v y)) :
    ∃ rhs', Source.lorentz com fluid field rhs = .ok rhs' ∧ rhs.SameShape rhs' ∧
      ∀ v', (∀ y, InBox (grow g M ++ [(0, (p : Int)), (0, (nf : Int))]) y → rhs'.arr.val y = some (v' y)) →
        (∀ y, ¬ InBox (grow g M ++ [(0, (p : Int)), (0, (nf : Int))]) y → v' y = v y) →
        LorentzAdded com (M ++ [(0, (p : Int))]) u w v v' := by
  rw [Source.lorentz_eq hf he hr hM hp hnf hne hg (holds_of_val hu) (holds_of_val hw)]
  have hnd : (((cells (M ++ [(0, (p : Int))])).flatMap (Source.lorentzUps com (fun x j => u (x ++ [(j : Int)]))
      (fun x j => w (x ++ [(j : Int)])))).map Prod.fst).Nodup := by
    rw [List.map_flatMap, List.nodup_flatMap]
    constructor
    · intro x _
      simp [Source.lorentzUps]
    · refine (cells_nodup _).imp ?_
      intro x y hxy z hz hz'
      simp [Source.lorentzUps] at hz hz'
      apply hxy
      rcases hz with rfl | rfl | rfl | rfl <;> rcases hz' with e | e | e | e <;>
        exact (List.append_inj' e rfl).1
  have hin : ∀ x, InBox (M ++ [(0, (p : Int))]) x → ∀ k : Int, 0 ≤ k → k < nf →
      InBox (grow g M ++ [(0, (p : Int)), (0, (nf : Int))]) (x ++ [k]) := by
    intro x hx k h0 h1
    have hxg := inBox_interior hg hx
    rw [FV.layout_split]
    exact (inBox_snoc hxg.length_eq).2 ⟨hxg, h0, h1⟩
  have hL : ∀ q ∈ (cells (M ++ [(0, (p : Int))])).flatMap (Source.lorentzUps com (fun x j => u (x ++ [(j : Int)]))
      (fun x j => w (x ++ [(j : Int)]))), InBox rhs.arr.rng.dims q.1 := by
    intro q hq
    rw [hr.dims]
    rw [List.mem_flatMap] at hq
    obtain ⟨x, hx, hq⟩ := hq
    rw [mem_cells] at hx
    simp [Source.lorentzUps] at hq
    rcases hq with rfl | rfl | rfl | rfl <;> exact hin x hx _ (by decide) (by omega)
  obtain ⟨h1, h2⟩ := IFace.foldl_upd _ hr.wf (by rw [hr.dims]; simp) hL hnd
  refine ⟨_, rfl, ?_, ?_⟩
  · exact IFace.foldl_upd_sameShape _ _
  · intro v' hv' hout
    have hchg : ∀ x, InBox (M ++ [(0, (p : Int))]) x → ∀ q ∈ Source.lorentzUps com (fun x j => u (x ++ [(j : Int)]))
        (fun x j => w (x ++ [(j : Int)])) x, v' q.1 = q.2 (v q.1) := by
      intro x hx q hq
      have hm : q ∈ (cells (M ++ [(0, (p : Int))])).flatMap (Source.lorentzUps com (fun x j => u (x ++ [(j : Int)]))
          (fun x j => w (x ++ [(j : Int)]))) := List.mem_flatMap.2 ⟨x, mem_cells.2 hx, hq⟩
      have e := h1 q hm
      have hq' := hL q hm
      rw [hr.dims] at hq'
      rw [hv _ hq'] at e
      have := hv' _ hq'
      simp only [] at this
      rw [e] at this
      exact (Option.some.inj this).symm
    refine ⟨?_, ?_, ?_, ?_, ?_⟩
    · intro x hx; simpa using hchg x hx _ (List.mem_cons_self)
    · intro x hx; simpa using hchg x hx _ (List.mem_cons_of_mem _ List.mem_cons_self)
    · intro x hx; simpa using hchg x hx _ (List.mem_cons_of_mem _ (List.mem_cons_of_mem _ List.mem_cons_self))
    · intro x hx; simpa using hchg x hx _ (List.mem_cons_of_mem _ (List.mem_cons_of_mem _ (List.mem_cons_of_mem _ List.mem_cons_self)))
    · intro y hy
      by_cases hyb : InBox (grow g M ++ [(0, (p : Int)), (0, (nf : Int))]) y
      · have e := h2 y (by rw [hr.dims]; exact hyb) (by
          rw [List.map_flatMap, List.mem_flatMap]
          rintro ⟨x, hx, hq⟩
          rw [mem_cells] at hx
          simp [Source.lorentzUps] at hq
          rcases hq with rfl | rfl | rfl | rfl <;> exact hy x _ hx (by decide) (by decide) rfl)
        rw [hv _ hyb] at e
        have := hv' _ hyb
        simp only [] at this
        rw [e] at this
        exact (Option.some.inj this).symm
      · exact hout y hyb

/-- **C60** `lorentz_force::solve` adds the Lorentz force in every cell of the mesh and touches nothing else. -/
theorem C60_lorentz (com : α) (h : m.Good S) (hL : m.Laid) {fl fe r : VarId} (hfl : S fl) (hfe : S fe) (hr : S r)
    (nf : fl ≠ r) (ne : fe ≠ r) (hp : 1 ≤ fl.basis.points) (hpe : fe.basis.points = fl.basis.points)
    (hpr : r.basis.points = fl.basis.points) (n5 : 5 ≤ fl.comps.length) (n6 : 6 ≤ fe.comps.length)
    (nr : r.comps.length = fl.comps.length) {u w v : Cell → α} (hu : m.Stores fl u) (hw : m.Stores fe w) (hv : m.Initial r v) :
    ∃ m' v', lorentz com [fl, fe] [r] m = .ok () m' ∧ m'.Good S ∧ m'.Laid ∧ m.Extends m' ∧
      (∀ id, id ≠ r → m'.contents id = m.contents id) ∧ m'.Stores r v' ∧
      LorentzAdded com (m.grid.rng.dims ++ [(0, fl.basis.points)]) u w v v' := by
  obtain ⟨cf, ef, vf⟩ := hu
  obtain ⟨ce, ee, ve⟩ := hw
  obtain ⟨a, ha⟩ := exists_addr h ef
  obtain ⟨e, he⟩ := exists_addr h ee
  obtain ⟨b, m1, k1, k2, k3, k4, k5, k6⟩ := outputVar_requested h hL hr
  obtain ⟨c, hc, vc⟩ := requested_initial h hr hv
  rw [← k6] at hc
  have hcf : m1.contents fl = some cf := by rw [k6, requested_ne nf, ef]
  have hce : m1.contents fe = some ce := by rw [k6, requested_ne ne, ee]
  obtain ⟨p, ep⟩ : ∃ p : Nat, fl.basis.points = p := ⟨fl.basis.points.toNat, by omega⟩
  have yf := k3 _ _ hcf
  have ye := k3 _ _ hce
  have yr := k3 _ _ hc
  rw [k4.grid] at yf ye yr
  rw [hpe, ep] at ye
  rw [hpr, ep, nr] at yr
  rw [ep] at yf
  unfold Mgr.arrayBox at vf ve vc
  rw [hpe, ep] at ve
  rw [hpr, ep, nr] at vc
  rw [ep] at vf
  obtain ⟨c', s1, s2, s3⟩ := lorentz_spec (com := com) yf ye yr h.mesh_pos (by omega) n5 n6 (by decide) vf ve vc
  have hl' : c'.Layout 2 m1.grid.rng.dims [(0, r.basis.points), (0, (r.comps.length : Int))] := (k3 _ _ hc).sameShape s2
  obtain ⟨v', t1, t2, t3⟩ := stores_update k2 k5 hl' v
  unfold Mgr.arrayBox at t2 t3
  rw [k4.grid, hpr, ep, nr] at t2 t3
  refine ⟨m1.store b c', v', ?_, k2.store _ _, Mgr.Laid.store k2 k3 k5 hc s2, k4.trans (Mgr.store_extends _ _ _), ?_, t1, ?_⟩
  · unfold lorentz
    simp only
    rw [SM.bind_ok (inputVar_existing h hfl ha), SM.bind_ok (inputVar_existing h hfe he), SM.bind_ok k1]
    refine kernelLoop_spec k2 (k4.addr _ _ ha) k5 (cs := [cf, ce]) (.cons ⟨fl, k4.addr _ _ ha, hcf⟩ (.cons ⟨fe, k4.addr _ _ he, hce⟩ .nil)) hc ?_
    rw [addr_ne k2 (k4.addr _ _ ha) k5 nf, addr_ne k2 (k4.addr _ _ he) k5 ne]
    exact s1
  · intro id hid
    rw [k2.store_contents k5, Function.update_of_ne hid, k6, requested_ne hid]
  · rw [ep]; exact s3 v' t2 t3

end

/-- **C60** In exact arithmetic the force on the momentum is `com (ρ E + p × B)`, the power is `com p·E`, and the rate of
change of the internal energy, `e' - p·p'/ρ`, is 0: the magnetic field does no work. -/
theorem C60_no_work {com : ℝ} {B : Box} {u w v v' : Cell → ℝ} (h : LorentzAdded com B u w v v') {x : Cell} (hx : InBox B x) :
    let rho := u (x ++ [0])
    let p : Vec := ![u (x ++ [1]), u (x ++ [2]), u (x ++ [3])]
    let E : Vec := ![w (x ++ [0]), w (x ++ [1]), w (x ++ [2])]
    let b : Vec := ![w (x ++ [3]), w (x ++ [4]), w (x ++ [5])]
    let dp : Vec := ![v' (x ++ [1]) - v (x ++ [1]), v' (x ++ [2]) - v (x ++ [2]), v' (x ++ [3]) - v (x ++ [3])]
    let de := v' (x ++ [4]) - v (x ++ [4])
    (∀ i, dp i = com * (rho * E i + cross p b i)) ∧ de = com * vdot p E ∧ (rho ≠ 0 → de - vdot p dp / rho = 0) := by
  intro rho p E b dp de
  have e1 : dp 0 = com * (rho * E 0 + cross p b 0) := by
    simp only [dp, rho, E, p, b, cross, h.momX x hx, Matrix.cons_val]; ring
  have e2 : dp 1 = com * (rho * E 1 + cross p b 1) := by
    simp only [dp, rho, E, p, b, cross, h.momY x hx, Matrix.cons_val]; ring
  have e3 : dp 2 = com * (rho * E 2 + cross p b 2) := by
    simp only [dp, rho, E, p, b, cross, h.momZ x hx, Matrix.cons_val]; ring
  have e4 : de = com * vdot p E := by
    simp [de, p, E, vdot, h.energy x hx]
  refine ⟨?_, e4, ?_⟩
  · intro i
    match i with
    | 0 => exact e1
    | 1 => exact e2
    | 2 => exact e3
  · intro hr
    have : vdot p dp = rho * de := by
      unfold vdot; rw [e1, e2, e3, e4]; unfold vdot cross; simp; ring
    rw [this]; field_simp; ring

/-! ## C61 -/

section
variable {α : Type} [Arith α] {S : VarId → Prop} {m : Mgr α}

/-- The effect of the kernel of the current source on values. -/
theorem current_spec {mult : α} {fluid rhs : Chunk α} {g : Int} {M : Box} {p nf nr : Nat} {u v : Cell → α}
    (hf : fluid.Layout g M [(0, (p : Int)), (0, (nf : Int))]) (hr : rhs.Layout g M [(0, (p : Int)), (0, (nr : Int))])
    (hM : Pos M) (hp : 1 ≤ p) (hnf : 4 ≤ nf) (hnr : 3 ≤ nr) (hg : 0 ≤ g)
    (hu : ∀ y, InBox (grow g M ++ [(0, (p : Int)), (0, (nf : Int))]) y → fluid.arr.val y = some (u y))
    (hv : ∀ y, InBox (grow g M ++ [(0, (p : Int)), (0, (nr : Int))]) y → rhs.arr.val y = some (v y)) :
    ∃ rhs', Source.current mult (some fluid) rhs = .ok rhs' ∧ rhs.SameShape rhs' ∧
      ∀ v', (∀ y, InBox (grow g M ++ [(0, (p : Int)), (0, (nr : Int))]) y → rhs'.arr.val y = some (v' y)) →
        (∀ y, ¬ InBox (grow g M ++ [(0, (p : Int)), (0, (nr : Int))]) y → v' y = v y) →
        CurrentAdded (M ++ [(0, (p : Int))]) [(mult, u)] v v' := by
  rw [Source.current_eq hf hr hM hp hnf hnr hg (holds_of_val hu)]
  have hin : ∀ q ∈ (Source.vecCells (M ++ [(0, (p : Int))])).map (Source.currentUp mult (fun x j => u (x ++ [(j : Int)]))),
      InBox rhs.arr.rng.dims q.1 := by
    intro q hq
    obtain ⟨⟨x, j⟩, hx, rfl⟩ := List.mem_map.1 hq
    rw [Source.mem_vecCells] at hx
    have hxg := inBox_interior hg hx.1
    have := hx.2
    simp only [] at hxg this
    rw [hr.dims, FV.layout_split]
    exact (inBox_snoc hxg.length_eq).2 ⟨hxg, by omega, by omega⟩
  have hnd : (((Source.vecCells (M ++ [(0, (p : Int))])).map
      (Source.currentUp mult (fun x j => u (x ++ [(j : Int)])))).map Prod.fst).Nodup := by
    have e := Source.cells_vec (M ++ [(0, (p : Int))]) 0
    rw [List.map_map]
    have : (Prod.fst ∘ Source.currentUp mult fun x j => u (x ++ [(j : Int)])) = fun q : Cell × Nat => q.1 ++ [0 + (q.2 : Int)] := by
      funext q; simp [Source.currentUp]
    rw [this, ← e]
    exact cells_nodup _
  obtain ⟨h1, h2⟩ := IFace.foldl_upd _ hr.wf (by rw [hr.dims]; simp) hin hnd
  refine ⟨_, rfl, IFace.foldl_upd_sameShape _ _, ?_⟩
  intro v' hv' hout
  constructor
  · intro x k hx h0 h3
    have hm : Source.currentUp mult (fun x j => u (x ++ [(j : Int)])) (x, k.toNat) ∈
        (Source.vecCells (M ++ [(0, (p : Int))])).map (Source.currentUp mult (fun x j => u (x ++ [(j : Int)]))) :=
      List.mem_map_of_mem (Source.mem_vecCells.2 ⟨hx, by simp only; omega⟩)
    have e := h1 _ hm
    have hq' := hin _ hm
    rw [hr.dims] at hq'
    rw [hv _ hq'] at e
    have := hv' _ hq'
    simp only [] at this
    rw [e] at this
    have hk : ((k.toNat : Nat) : Int) = k := by omega
    simp only [Source.currentUp, Option.map_some, Option.some.injEq] at this
    push_cast at this
    rw [hk] at this
    rw [← this]; rfl
  · intro y hy
    by_cases hyb : InBox (grow g M ++ [(0, (p : Int)), (0, (nr : Int))]) y
    · have e := h2 y (by rw [hr.dims]; exact hyb) (by
        rw [List.map_map, List.mem_map]
        rintro ⟨⟨x, j⟩, hx, rfl⟩
        rw [Source.mem_vecCells] at hx
        exact hy x j hx.1 (by omega) (by have := hx.2; simp only at this; omega) rfl)
      rw [hv _ hyb] at e
      have := hv' _ hyb
      simp only [] at this
      rw [e] at this
      exact (Option.some.inj this).symm
    · exact hout y hyb

theorem CurrentAdded.cons {B : Box} {f : α × (Cell → α)} {l : List (α × (Cell → α))} {v v1 v2 : Cell → α}
    (h1 : CurrentAdded B [f] v v1) (h2 : CurrentAdded B l v1 v2) : CurrentAdded B (f :: l) v v2 := by
  constructor
  · intro x k hx h0 h3
    rw [h2.field x k hx h0 h3, h1.field x k hx h0 h3]; rfl
  · intro y hy
    rw [h2.rest y hy, h1.rest y hy]

theorem currentLoop_spec {r : VarId} (hr : S r) {pts : Int} (hpts : 1 ≤ pts) (hpr : r.basis.points = pts) (nr : 3 ≤ r.comps.length)
    {b : Nat} {u : VarId → Cell → α} :
    ∀ (l : List (α × VarId)) (m : Mgr α) (v : Cell → α), m.Good S → m.Laid → m.addr r = some b → m.Stores r v →
      (∀ f ∈ l, S f.2 ∧ f.2 ≠ r ∧ f.2.basis.points = pts ∧ 4 ≤ f.2.comps.length ∧ m.Stores f.2 (u f.2)) →
      ∃ m' v', currentLoop b l m = .ok () m' ∧ m'.Good S ∧ m'.Laid ∧ m.Extends m' ∧ (∀ id, id ≠ r → m'.contents id = m.contents id) ∧
        m'.Stores r v' ∧ CurrentAdded (m.grid.rng.dims ++ [(0, pts)]) (l.map fun f => (f.1, u f.2)) v v' := by
  intro l
  induction l with
  | nil =>
    intro m v h hL _ hv _
    exact ⟨m, v, rfl, h, hL, ⟨rfl, rfl, rfl, fun _ _ h => h⟩, fun _ _ => rfl, hv, ⟨fun _ _ _ _ _ => rfl, fun _ _ => rfl⟩⟩
  | cons f l ih =>
    intro m v h hL hb hv hf
    obtain ⟨mult, id⟩ := f
    obtain ⟨f1, f2, f3, f4, c, hc, vc⟩ := hf (mult, id) List.mem_cons_self
    simp only at f1 f2 f3 f4 hc vc
    obtain ⟨a, ha⟩ := exists_addr h hc
    obtain ⟨d, hd, vd⟩ := hv
    obtain ⟨p, ep⟩ : ∃ p : Nat, pts = p := ⟨pts.toNat, by omega⟩
    have yf := hL _ _ hc
    have yr := hL _ _ hd
    unfold Mgr.arrayBox at vc vd
    rw [f3, ep] at yf vc
    rw [hpr, ep] at yr vd
    obtain ⟨d', s1, s2, s3⟩ := current_spec (mult := mult) yf yr h.mesh_pos (by omega) f4 nr (by decide) vc vd
    obtain ⟨v1, t1, t2, t3⟩ := stores_update h hb ((hL _ _ hd).sameShape s2) v
    unfold Mgr.arrayBox at t2 t3
    rw [hpr, ep] at t2 t3
    have hrest : ∀ x, x ≠ r → (m.store b d').contents x = m.contents x := by
      intro x hx; rw [h.store_contents hb, Function.update_of_ne hx]
    obtain ⟨m', v', k1, k2, k3, k4, k5, k6, k7⟩ := ih (m.store b d') v1 (h.store _ _) (Mgr.Laid.store h hL hb hd s2)
      ((Mgr.store_extends _ _ _).addr _ _ hb) t1 (fun g hg => by
        obtain ⟨g1, g2, g3, g4, e, he, ve⟩ := hf g (List.mem_cons_of_mem _ hg)
        exact ⟨g1, g2, g3, g4, e, by rw [hrest _ g2]; exact he, ve⟩)
    refine ⟨m', v', ?_, k2, k3, (Mgr.store_extends _ _ _).trans k4, fun x hx => by rw [k5 x hx, hrest x hx], k6, ?_⟩
    · unfold currentLoop
      rw [SM.bind_ok (inputVar_existing h f1 ha)]
      refine Eq.trans (SM.bind_ok (kernelLoop_spec h ha hb (cs := [c]) (c' := d') (.cons ⟨id, ha, hc⟩ .nil) hd ?_)) k1
      rw [addr_ne h ha hb f2]
      exact s1
    · rw [List.map_cons]
      exact CurrentAdded.cons (by rw [ep]; exact s3 v1 t2 t3) k7

/-- **C61** `current_source::solve` adds, fluid by fluid in the order of the list, the multiplier times the momentum to
the electric field components in every cell of the mesh and touches nothing else. -/
theorem C61_current (h : m.Good S) (hL : m.Laid) {r : VarId} (hr : S r) {pts : Int} (hpts : 1 ≤ pts)
    (hpr : r.basis.points = pts) (nr : 3 ≤ r.comps.length) {mults : List α} {fluids : List VarId} (hlen : fluids.length = mults.length)
    {u : VarId → Cell → α} {v : Cell → α}
    (hf : ∀ f ∈ fluids, S f ∧ f ≠ r ∧ f.basis.points = pts ∧ 4 ≤ f.comps.length ∧ m.Stores f (u f)) (hv : m.Initial r v) :
    ∃ m' v', current mults fluids [r] m = .ok () m' ∧ m'.Good S ∧ m'.Laid ∧ m.Extends m' ∧
      (∀ id, id ≠ r → m'.contents id = m.contents id) ∧ m'.Stores r v' ∧
      CurrentAdded (m.grid.rng.dims ++ [(0, pts)]) (mults.zip (fluids.map u)) v v' := by
  obtain ⟨b, m1, k1, k2, k3, k4, k5, k6⟩ := outputVar_requested h hL hr
  obtain ⟨c, hc, vc⟩ := requested_initial h hr hv
  have hab : ∀ id, m1.arrayBox id = m.arrayBox id := by intro id; unfold Mgr.arrayBox; rw [k4.grid]
  obtain ⟨m', v', s1, s2, s3, s4, s5, s6, s7⟩ := currentLoop_spec hr hpts hpr nr (u := u) (mults.zip fluids) m1 v k2 k3 k5
    ⟨c, by rw [k6]; exact hc, by rw [hab]; exact vc⟩ (fun f hf' => by
      have := (List.of_mem_zip hf').2
      obtain ⟨g1, g2, g3, g4, e, he, ve⟩ := hf _ this
      exact ⟨g1, g2, g3, g4, e, by rw [k6, requested_ne g2]; exact he, by rw [hab]; exact ve⟩)
  refine ⟨m', v', ?_, s2, s3, k4.trans s4, fun id hid => by rw [s5 id hid, k6, requested_ne hid], s6, ?_⟩
  · unfold current
    rw [if_neg (not_not.2 hlen)]
    simp only
    rw [SM.bind_ok k1]
    exact s1
  · rw [k4.grid] at s7
    rw [List.zip_map_right]
    exact s7

/-- **C61** Charges and masses of different numbers are rejected; otherwise the multipliers are `-q/m/ε₀`. -/
theorem C61_setup (eps0 : α) (charges masses : List α) :
    (charges.length ≠ masses.length → ∃ msg, Source.currentSetup eps0 charges masses = .throw msg) ∧
    (charges.length = masses.length → ∃ mults, Source.currentSetup eps0 charges masses = .ok mults ∧
      mults.length = charges.length ∧ ∀ i (h : i < charges.length) (h' : i < masses.length),
        mults[i]? = some (-charges[i] / masses[i] / eps0)) := by
  unfold Source.currentSetup
  constructor
  · intro h; rw [if_pos h]; exact ⟨_, rfl⟩
  · intro h
    rw [if_neg (not_not.2 h)]
    refine ⟨_, rfl, by simp [h], ?_⟩
    intro i h1 h2
    simp [h1, h2]

end

/-- **C61** In exact arithmetic: the electric field components lose the sum over the fluids of `(q/m) p/ε₀`. -/
theorem C61_sum {eps0 : ℝ} {charges masses mults : List ℝ} (hs : Source.currentSetup eps0 charges masses = .ok mults)
    {B : Box} {fs : List (Cell → ℝ)} {v v' : Cell → ℝ} (h : CurrentAdded B (mults.zip fs) v v')
    {x : Cell} {k : Int} (hx : InBox B x) (h0 : 0 ≤ k) (h3 : k < 3) :
    v' (x ++ [k]) = v (x ++ [k]) -
      (List.zipWith (fun (cm : ℝ × ℝ) (f : Cell → ℝ) => cm.1 / cm.2 * f (x ++ [k + 1]) / eps0) (charges.zip masses) fs).sum := by
  rw [h.field x k hx h0 h3]
  have : mults = (charges.zip masses).map fun cm => -cm.1 / cm.2 / eps0 := by
    unfold Source.currentSetup at hs
    split at hs
    · cases hs
    · cases hs
      rw [List.zip, List.map_zipWith]
  rw [this]
  generalize charges.zip masses = l
  generalize v (x ++ [k]) = a
  clear h hs this
  induction l generalizing fs a with
  | nil => simp
  | cons cm l ih =>
    cases fs with
    | nil => simp
    | cons f fs =>
      simp only [List.map_cons, List.zip_cons_cons, List.foldl_cons, List.zipWith_cons_cons, List.sum_cons]
      rw [ih]; ring

/-! ## Examples -/

/-- Variables of a two-fluid plasma: two fluids, a field and the right-hand sides. -/
def exPlasma (s : String) (n : Nat) : VarId := ⟨s, List.replicate n "c", Basis.volumeAverage⟩
def exPlasmaIds : List VarId := [exPlasma "e" 5, exPlasma "i" 5, exPlasma "f" 8, exPlasma "r" 5, exPlasma "s" 8]

theorem exPlasma_consistent : Mgr.Consistent (· ∈ exPlasmaIds) := by
  intro a b ha hb hn
  simp [exPlasmaIds, exPlasma] at ha hb
  rcases ha with rfl | rfl | rfl | rfl | rfl <;> rcases hb with rfl | rfl | rfl | rfl | rfl <;> first | rfl | (simp at hn)

/-- A manager on a 3 × 2 grid with arbitrary data for two fluids and the field, and no right-hand side yet. -/
theorem exPlasma_manager (u : VarId → Cell → ℝ) : ∃ m : Mgr ℝ, m.Good (· ∈ exPlasmaIds) ∧ m.Laid ∧
    m.grid = ⟨Range.setup [(0,3),(0,2)], [0,0], [1,1], [1/3,1/2]⟩ ∧
    (∀ id ∈ [exPlasma "e" 5, exPlasma "i" 5, exPlasma "f" 8], m.Stores id (u id)) ∧
    m.contents (exPlasma "r" 5) = none ∧ m.contents (exPlasma "s" 8) = none := by
  obtain ⟨m, h1, h2, h3, h4, h5, h6, h7⟩ := Mgr.exists_manager exPlasma_consistent (fun id h => by
      simp [exPlasmaIds, exPlasma] at h; rcases h with rfl | rfl | rfl | rfl | rfl <;> simp [Basis.volumeAverage])
    (⟨Range.setup [(0,3),(0,2)], [0,0], [1,1], [1/3,1/2]⟩ : Rectilinear ℝ) (by decide) (by decide) (1/10) 0 u
    (ids := [exPlasma "e" 5, exPlasma "i" 5, exPlasma "f" 8]) (by intro id h; simp [exPlasmaIds] at h ⊢; tauto) (by simp [exPlasma])
  exact ⟨m, h1, h2, h3, h6, h7 _ (by simp [exPlasma]), h7 _ (by simp [exPlasma])⟩

example (u : VarId → Cell → ℝ) (com : ℝ) : ∃ (m m' : Mgr ℝ) (v' : Cell → ℝ),
    lorentz com [exPlasma "e" 5, exPlasma "f" 8] [exPlasma "r" 5] m = .ok () m' ∧ m'.Stores (exPlasma "r" 5) v' ∧
    v' [2, 1, 0, 4] = 0 + com * (u (exPlasma "e" 5) [2, 1, 0, 1] * u (exPlasma "f" 8) [2, 1, 0, 0] +
      u (exPlasma "e" 5) [2, 1, 0, 2] * u (exPlasma "f" 8) [2, 1, 0, 1] + u (exPlasma "e" 5) [2, 1, 0, 3] * u (exPlasma "f" 8) [2, 1, 0, 2]) ∧
    v' [3, 1, 0, 4] = 0 := by
  obtain ⟨m, h1, h2, h3, h4, h5, _⟩ := exPlasma_manager u
  obtain ⟨m', v', k1, _, _, _, _, k2, k3⟩ := C60_lorentz com h1 h2 (fl := exPlasma "e" 5) (fe := exPlasma "f" 8) (r := exPlasma "r" 5)
    (by simp [exPlasmaIds]) (by simp [exPlasmaIds]) (by simp [exPlasmaIds]) (by simp [exPlasma]) (by simp [exPlasma]) (by decide) rfl rfl
    (by decide) (by decide) rfl (h4 _ (by simp)) (h4 _ (by simp)) (.inr ⟨h5, rfl⟩)
  have hz : (Arith.lit 0 : ℝ) = 0 := by simp [real_lit]
  refine ⟨m, m', v', k1, k2, ?_, ?_⟩
  · have := k3.energy [2, 1, 0] (by rw [h3]; decide)
    simpa [hz] using this
  · rw [k3.rest, hz]
    intro x k hx _ _ e
    rw [h3] at hx
    have e' : ([3, 1, 0] : Cell) ++ [4] = x ++ [k] := e
    obtain ⟨rfl, -⟩ := List.append_inj' e' rfl
    revert hx
    decide

example (u : VarId → Cell → ℝ) (eps0 : ℝ) : ∃ (m m' : Mgr ℝ) (mults : List ℝ) (v' : Cell → ℝ),
    Source.currentSetup eps0 [-1, 1] [1 / 25, 1] = .ok mults ∧
    current mults [exPlasma "e" 5, exPlasma "i" 5] [exPlasma "s" 8] m = .ok () m' ∧ m'.Stores (exPlasma "s" 8) v' ∧
    v' [2, 1, 0, 2] = 25 * u (exPlasma "e" 5) [2, 1, 0, 3] / eps0 - u (exPlasma "i" 5) [2, 1, 0, 3] / eps0 := by
  obtain ⟨m, h1, h2, h3, h4, _, h5⟩ := exPlasma_manager u
  obtain ⟨mults, s1, s2, _⟩ := (C61_setup eps0 [-1, 1] [1 / 25, 1]).2 rfl
  obtain ⟨m', v', k1, _, _, _, _, k2, k3⟩ := C61_current h1 h2 (r := exPlasma "s" 8) (by simp [exPlasmaIds]) (pts := 1) (by decide) rfl (by decide)
    (mults := mults) (fluids := [exPlasma "e" 5, exPlasma "i" 5]) (by rw [s2]; rfl) (u := u)
    (fun f hf => by
      have hs := h4 f (by simp at hf ⊢; tauto)
      simp at hf
      rcases hf with rfl | rfl <;> exact ⟨by simp [exPlasmaIds], by simp [exPlasma], rfl, by decide, hs⟩)
    (.inr ⟨h5, rfl⟩)
  have hz : (Arith.lit 0 : ℝ) = 0 := by simp [real_lit]
  refine ⟨m, m', mults, v', s1, k1, k2, ?_⟩
  have := C61_sum s1 k3 (x := [2, 1, 0]) (k := 2) (by rw [h3]; decide) (by decide) (by decide)
  simp [hz] at this
  rw [this]; ring

end QK.Props
