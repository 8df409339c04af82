import Verif.Spec.Initial
import Verif.Spec.Physics
import Verif.Model.ArithReal
import Verif.Proofs.InitialMany
import Verif.Proofs.Examples
import Verif.Props.Initial
import Mathlib.Analysis.SpecialFunctions.Trigonometric.Deriv
import Mathlib.Analysis.SpecialFunctions.Trigonometric.DerivHyp
/-
Properties of the initial conditions that write three variables: C37 (brio_wu), C63 (brio_wu), C71, C73.
-/
namespace QK.Props
open Spec Solve

section
variable {α : Type} [Arith α] {S : VarId → Prop} {m : Mgr α}

/-- **C37** `brio_wu_shock_tube::solve` throws unless it has three output variables, and then the manager is unchanged. -/
theorem C37_brio_wu (s : Init.BrioWu α) {outs : List VarId} (h : outs.length ≠ 3) : ∃ e, brioWu s outs m = .throw e m := by
  unfold brioWu
  split
  · exact absurd rfl h
  · exact ⟨_, rfl⟩

/-- `brio_wu_shock_tube::solve`, values in any arithmetic. -/
theorem brio_all (s : Init.BrioWu α) (h : m.Good S) (hL : m.Laid) (hg : m.grid.Sized) (h3 : m.grid.rng.dims.length ≤ 3)
    {oe oi of : VarId} (he : S oe) (hi : S oi) (hf : S of) (hei : oe ≠ oi) (hef : oe ≠ of) (hif : oi ≠ of)
    (hp : 1 ≤ oe.basis.points) (hpi : oi.basis.points = oe.basis.points) (hpf : of.basis.points = oe.basis.points)
    (hn : 5 ≤ oe.comps.length) (hni : oi.comps.length = oe.comps.length) (hnf : 5 ≤ of.comps.length) :
    ∃ m', brioWu s [oe, oi, of] m = .ok () m' ∧ m'.Good S ∧ m'.Laid ∧ m.Extends m' ∧
      m'.SetTo oe (m.meshCells oe) (fun x j => if j = 0 then s.rhoE m.grid x else if j = 4 then s.enE m.grid x else Arith.lit 0) ∧
      m'.SetTo oi (m.meshCells oi) (fun x j => if j = 0 then s.rhoI m.grid x else if j = 4 then s.enE m.grid x else Arith.lit 0) ∧
      m'.SetTo of (m.meshCells of) (fun x j => if j = 4 then s.byF m.grid x else if j = 3 then s.Bx else Arith.lit 0) ∧
      ∀ id, id ≠ oe → id ≠ oi → id ≠ of → m'.contents id = m.contents id := by
  have h1 : 1 ≤ m.grid.rng.dims.length := by
    have := h.mesh_ne
    cases hd : m.grid.rng.dims with
    | nil => exact absurd hd this
    | cons _ _ => simp
  obtain ⟨p, ep⟩ : ∃ p : Nat, oe.basis.points = p := ⟨oe.basis.points.toNat, by omega⟩
  have epi : oi.basis.points = p := by omega
  have epf : of.basis.points = p := by omega
  obtain ⟨m', k1, k2, k3, k4, ⟨ce, ci, cf, q1, q2, q3, q4, q5, q6⟩, k6⟩ := threeOutputs h hL he hi hf hei hef hif
    (body := fun ae ai af idx m => do
      let ce ← chunkAt m ae idx
      let ci ← chunkAt m ai idx
      let cf ← chunkAt m af idx
      let i := if ai = ae then 0 else 1
      let f := if af = ae then 0 else if af = ai then 1 else 2
      let cs ← Init.brioWu s m.grid 0 i f [ce, ci, cf]
      let m ← setChunk m ae idx (← vget cs 0)
      let m ← setChunk m ai idx (← vget cs i)
      setChunk m af idx (← vget cs f))
    (fun ce ci cf =>
      (ce.Holds (m.meshCells oe) oe.comps.length (fun x j => if j = 0 then s.rhoE m.grid x else if j = 4 then s.enE m.grid x else Arith.lit 0) ∧
        ∀ y, InBox (m.arrayBox oe) y → ¬ InBox (m.meshCells oe) y.dropLast → ce.arr.val y = some (Arith.lit 0)) ∧
      (ci.Holds (m.meshCells oi) oi.comps.length (fun x j => if j = 0 then s.rhoI m.grid x else if j = 4 then s.enE m.grid x else Arith.lit 0) ∧
        ∀ y, InBox (m.arrayBox oi) y → ¬ InBox (m.meshCells oi) y.dropLast → ci.arr.val y = some (Arith.lit 0)) ∧
      (cf.Holds (m.meshCells of) of.comps.length (fun x j => if j = 4 then s.byF m.grid x else if j = 3 then s.Bx else Arith.lit 0) ∧
        ∀ y, InBox (m.arrayBox of) y → ¬ InBox (m.meshCells of) y.dropLast → cf.arr.val y = some (Arith.lit 0)))
    (by
      intro m1 ae ai af ce ci cf g1 hgr a1 a2 a3 c1 c2 c3 l1 l2 l3
      unfold Mgr.meshCells Mgr.arrayBox
      rw [ep] at l1
      rw [epi, hni] at l2
      rw [epf] at l3
      rw [ep, epi, epf, hni]
      have hg' : m1.grid.Sized := by rw [hgr]; exact hg
      have r := Init.brioWu_eq s hg' (by rw [hgr]) h3 h1 (by decide) h.mesh_pos (p := p) (by omega) hn hnf l1 l2 l3
      simp only [] at r
      obtain ⟨ce', x1, x2, x3, x4⟩ := Init.pair_spec (by decide) l1 (a := 0) (b := 4) (by decide) (by omega) (by omega) (s.rhoE m.grid) (s.enE m.grid) _ (fun _ _ => rfl)
      obtain ⟨ci', y1, y2, y3, y4⟩ := Init.pair_spec (by decide) l2 (a := 0) (b := 4) (by decide) (by omega) (by omega) (s.rhoI m.grid) (s.enE m.grid) _ (fun _ _ => rfl)
      obtain ⟨cf', z1, z2, z3, z4⟩ := Init.pair_spec (by decide) l3 (a := 4) (b := 3) (by decide) (by omega) (by omega) (s.byF m.grid) (fun _ => s.Bx) _ (fun _ _ => rfl)
      refine ⟨ce', ci', cf', ?_, x2, y2, z2, ⟨x3, x4⟩, ⟨y3, y4⟩, z3, z4⟩
      intro idx hidx
      rw [chunkAt_spec g1 a1 c1 hidx, Res.ok_bind, chunkAt_spec g1 a2 c2 hidx, Res.ok_bind, chunkAt_spec g1 a3 c3 hidx, Res.ok_bind]
      have n1 : ¬ ai = ae := fun e => hei (g1.addr_inj a1 (by rw [← e]; exact a2))
      have n2 : ¬ af = ae := fun e => hef (g1.addr_inj a1 (by rw [← e]; exact a3))
      have n3 : ¬ af = ai := fun e => hif (g1.addr_inj a2 (by rw [← e]; exact a3))
      rw [if_neg n1, if_neg n2, if_neg n3]
      simp only []
      rw [hgr] at r ⊢
      rw [r, Res.ok_bind]
      simp only [Nat.cast_zero, Nat.cast_ofNat] at x1 y1 z1
      rw [← x1, ← y1, ← z1]
      rw [show vget [ce', ci', cf'] 0 = .ok ce' from rfl, Res.ok_bind, setChunk_spec g1 a1 _ hidx, Res.ok_bind,
        show vget [ce', ci', cf'] ((1 : Nat) : Int) = .ok ci' from rfl, Res.ok_bind,
        setChunk_spec (g1.store ae ce') (id := oi) (by exact a2) _ hidx, Res.ok_bind,
        show vget [ce', ci', cf'] ((2 : Nat) : Int) = .ok cf' from rfl, Res.ok_bind,
        setChunk_spec ((g1.store ae ce').store ai ci') (id := of) (by exact a3) _ hidx])
  have hab : ∀ id, m'.arrayBox id = m.arrayBox id := by intro id; unfold Mgr.arrayBox; rw [k4.grid]
  exact ⟨m', k1, k2, k3, k4, ⟨ce, q1, q4.1, by rw [hab]; exact q4.2⟩, ⟨ci, q2, q5.1, by rw [hab]; exact q5.2⟩,
    ⟨cf, q3, q6.1, by rw [hab]; exact q6.2⟩, k6⟩

/-- `gem_challenge::solve`, values in any arithmetic. -/
theorem gem_all (s : Init.Gem α) (h : m.Good S) (hL : m.Laid) (hg : m.grid.Sized) (h3 : m.grid.rng.dims.length ≤ 3)
    {oe oi of : VarId} (he : S oe) (hi : S oi) (hf : S of) (hei : oe ≠ oi) (hef : oe ≠ of) (hif : oi ≠ of)
    (hp : 1 ≤ oe.basis.points) (hpi : oi.basis.points = oe.basis.points) (hpf : of.basis.points = oe.basis.points)
    (hn : 5 ≤ oe.comps.length) (hni : 5 ≤ oi.comps.length) (hnf : 5 ≤ of.comps.length) (more : List VarId) :
    ∃ m', gem s (oe :: oi :: of :: more) m = .ok () m' ∧ m'.Good S ∧ m'.Laid ∧ m.Extends m' ∧
      m'.SetTo oe (m.allCells oe) (s.fluidAt s.me s.Te s.ue m.grid) ∧
      m'.SetTo oi (m.allCells oi) (s.fluidAt s.mi s.Ti s.ui m.grid) ∧
      m'.SetTo of (m.allCells of) (s.fieldAt m.grid) ∧
      ∀ id, id ≠ oe → id ≠ oi → id ≠ of → m'.contents id = m.contents id := by
  obtain ⟨p, ep⟩ : ∃ p : Nat, oe.basis.points = p := ⟨oe.basis.points.toNat, by omega⟩
  have epi : oi.basis.points = p := by omega
  have epf : of.basis.points = p := by omega
  obtain ⟨m', k1, k2, k3, k4, ⟨ce, ci, cf, q1, q2, q3, q4, q5, q6⟩, k6⟩ := threeOutputs h hL he hi hf hei hef hif
    (body := fun ae ai af idx m => do
      aliased (ae == ai || ae == af || ai == af)
      let ce ← chunkAt m ae idx
      let ci ← chunkAt m ai idx
      let cf ← chunkAt m af idx
      let r ← Init.gem s m.grid ce ci cf
      let m ← setChunk m ae idx r.1
      let m ← setChunk m ai idx r.2.1
      setChunk m af idx r.2.2)
    (fun ce ci cf =>
      ce.Holds (m.allCells oe) oe.comps.length (s.fluidAt s.me s.Te s.ue m.grid) ∧
      ci.Holds (m.allCells oi) oi.comps.length (s.fluidAt s.mi s.Ti s.ui m.grid) ∧
      cf.Holds (m.allCells of) of.comps.length (s.fieldAt m.grid))
    (by
      intro m1 ae ai af ce ci cf g1 hgr a1 a2 a3 c1 c2 c3 l1 l2 l3
      unfold Mgr.allCells
      rw [ep] at l1
      rw [epi] at l2
      rw [epf] at l3
      rw [ep, epi, epf]
      have hg' : m1.grid.Sized := by rw [hgr]; exact hg
      obtain ⟨ce', ci', cf', r, x, y, z⟩ := Init.gem_eq s hg' (by rw [hgr]) h3 (by decide) h.mesh_pos (p := p) (by omega) hn hni hnf l1 l2 l3
      rw [hgr] at x y z
      refine ⟨ce', ci', cf', ?_, x.1, y.1, z.1, x.2, y.2, z.2⟩
      intro idx hidx
      simp only [addr_ne g1 a1 a2 hei, addr_ne g1 a1 a3 hef, addr_ne g1 a2 a3 hif, Bool.or_false]
      rw [show aliased false = .ok () from rfl, Res.ok_bind]
      rw [chunkAt_spec g1 a1 c1 hidx, Res.ok_bind, chunkAt_spec g1 a2 c2 hidx, Res.ok_bind, chunkAt_spec g1 a3 c3 hidx, Res.ok_bind,
        r, Res.ok_bind, setChunk_spec g1 a1 _ hidx, Res.ok_bind,
        setChunk_spec (g1.store ae ce') (id := oi) (by exact a2) _ hidx, Res.ok_bind,
        setChunk_spec ((g1.store ae ce').store ai ci') (id := of) (by exact a3) _ hidx])
  have hab : ∀ id, InBox (m'.arrayBox id) = InBox (m.allCells id ++ [(0, (id.comps.length : Int))]) := by
    intro id; unfold Mgr.arrayBox Mgr.allCells; rw [k4.grid, FV.layout_split]
  have out : ∀ (id : VarId) (y : Cell), InBox (m'.arrayBox id) y → InBox (m.allCells id) y.dropLast := by
    intro id y hy
    rw [hab] at hy
    have hl := hy.length_eq
    rcases List.eq_nil_or_concat y with rfl | ⟨x, l, rfl⟩
    · simp at hl
    · rw [List.concat_eq_append] at hy hl ⊢
      rw [List.dropLast_concat]
      exact ((inBox_snoc (by simpa using hl)).1 hy).1
  refine ⟨m', ?_, k2, k3, k4, ⟨ce, q1, q4, fun y hy hn => absurd (out _ y hy) hn⟩, ⟨ci, q2, q5, fun y hy hn => absurd (out _ y hy) hn⟩,
    ⟨cf, q3, q6, fun y hy hn => absurd (out _ y hy) hn⟩, k6⟩
  exact k1

/-- **C73** (false) `gem_challenge::solve` does not check that it has three output variables: with fewer, it reads beyond
the end of the list of ids. -/
theorem C73_false (s : Init.Gem α) (h : m.Good S) (hL : m.Laid) {outs : List VarId} (hS : ∀ id ∈ outs, S id) (hlen : outs.length < 3) :
    ∃ w, gem s outs m = .ub w := by
  unfold gem
  match outs, hlen with
  | [], _ => exact ⟨_, rfl⟩
  | [a], _ =>
    obtain ⟨a1, m1, e1, g1, l1, x1, b1, c1⟩ := outputVar_requested h hL (hS a (by simp))
    refine ⟨"vector index out of range", ?_⟩
    rw [SM.lift_bind (show vget [a] 0 = .ok a from rfl), SM.bind_ok e1]
    rfl
  | [a, b], _ =>
    obtain ⟨a1, m1, e1, g1, l1, x1, b1, c1⟩ := outputVar_requested h hL (hS a (by simp))
    obtain ⟨a2, m2, e2, g2, l2, x2, b2, c2⟩ := outputVar_requested g1 l1 (hS b (by simp))
    refine ⟨"vector index out of range", ?_⟩
    rw [SM.lift_bind (show vget [a, b] 0 = .ok a from rfl), SM.bind_ok e1,
      SM.lift_bind (show vget [a, b] 1 = .ok b from rfl), SM.bind_ok e2]
    rfl

/-- **C73** (holds when there are three distinct ones, with five components or more): see `C71_gem`. With two of them equal, the
arrays accessed through `__restrict__` pointers are the same. -/
theorem C73_alias_false (s : Init.Gem α) (h : m.Good S) (hL : m.Laid) {oe oi of : VarId} (he : S oe) (hi : S oi) (hf : S of)
    (heq : oe = oi ∨ oe = of ∨ oi = of) : ∃ w, gem s [oe, oi, of] m = .ub w := by
  obtain ⟨a1, m1, e1, g1, l1, x1, b1, c1⟩ := outputVar_requested h hL he
  obtain ⟨a2, m2, e2, g2, l2, x2, b2, c2⟩ := outputVar_requested g1 l1 hi
  obtain ⟨a3, m3, e3, g3, l3, x3, b3, c3⟩ := outputVar_requested g2 l2 hf
  have d1 := x3.addr _ _ (x2.addr _ _ b1)
  have d2 := x3.addr _ _ b2
  have hal : (a1 == a2 || a1 == a3 || a2 == a3) = true := by
    rcases heq with rfl | rfl | rfl
    · rw [d1] at d2; cases d2; simp
    · rw [d1] at b3; cases b3; simp
    · rw [d2] at b3; cases b3; simp
  refine ⟨"__restrict__ pointers to the same array", ?_⟩
  unfold gem
  rw [SM.lift_bind (show vget [oe, oi, of] 0 = .ok oe from rfl), SM.bind_ok e1,
      SM.lift_bind (show vget [oe, oi, of] 1 = .ok oi from rfl), SM.bind_ok e2,
      SM.lift_bind (show vget [oe, oi, of] 2 = .ok of from rfl), SM.bind_ok e3]
  unfold gemLoop
  obtain ⟨v, c', v1, _, _, _, _, _, v7, _⟩ := g3.stored' d1
  have hne : chunkBox m3.grid.rng.dims.length ≠ [] := by
    intro e
    have := congrArg List.length e
    simp only [chunkBox, List.length_replicate, List.length_nil] at this
    exact g3.mesh_ne (List.length_eq_zero_iff.1 this)
  unfold forChunks SM.modifyRes
  simp only []
  rw [vget_ok v1, Res.ok_bind, v7]
  unfold IFace.indexer
  rw [Indexer.forEach_make hne (within_self _) (pos_chunkBox _)]
  simp only [Range.setup_dims, cells_chunkBox, List.foldlM_cons, List.foldlM_nil, hal]
  rfl

end

/-! ## In exact arithmetic -/

/-- The components of a gas. -/
def gasAt (q : Gas) (j : Nat) : ℝ := q.comps.getD j 0

theorem gasAt_rest (rho en : ℝ) (j : Nat) : gasAt ⟨rho, 0, en⟩ j = if j = 0 then rho else if j = 4 then en else 0 := by
  unfold gasAt Gas.comps
  match j with
  | 0 | 1 | 2 | 3 | 4 => simp
  | n + 5 => simp

theorem gasAt_z (rho pz en : ℝ) (j : Nat) : gasAt ⟨rho, ![0, 0, pz], en⟩ j = if j = 0 then rho else if j = 3 then pz else if j = 4 then en else 0 := by
  unfold gasAt Gas.comps
  match j with
  | 0 | 1 | 2 | 3 | 4 => simp
  | n + 5 => simp

theorem emState_xy (bx bY : ℝ) (j : Nat) : emState 0 ![bx, bY, 0] j = if j = 3 then bx else if j = 4 then bY else 0 := by
  match j with
  | 0 | 1 | 2 | 3 | 4 | 5 => simp [emState]
  | n + 6 => simp [emState]

section
variable {S : VarId → Prop} {m : Mgr ℝ}

/-- **C63** (holds but for `By`, which is divided by `gamma - 1`) `brio_wu_shock_tube::solve` sets the electrons and ions of every
interior cell to gases at rest with densities `m n` and pressures `Pl` or `Pr`, and the field to `Bx` and `By` or `-By`, by
the side of `x = 0` the cell centre is on; everything else becomes zero. -/
theorem C63_brio_wu_partial (s : Init.BrioWu ℝ) (hgam : s.gamma ≠ 1) (hme : s.me ≠ 0) (h : m.Good S) (hL : m.Laid) (hg : m.grid.Sized)
    (h3 : m.grid.rng.dims.length ≤ 3) {oe oi of : VarId} (he : S oe) (hi : S oi) (hf : S of) (hei : oe ≠ oi) (hef : oe ≠ of) (hif : oi ≠ of)
    (hp : 1 ≤ oe.basis.points) (hpi : oi.basis.points = oe.basis.points) (hpf : of.basis.points = oe.basis.points)
    (hn : 5 ≤ oe.comps.length) (hni : oi.comps.length = oe.comps.length) (hnf : 5 ≤ of.comps.length) :
    ∃ m', brioWu s [oe, oi, of] m = .ok () m' ∧ m'.Good S ∧ m'.Laid ∧ m.Extends m' ∧
      (∀ id, id ≠ oe → id ≠ oi → id ≠ of → m'.contents id = m.contents id) ∧
      ∃ (qe qi : Cell → Gas) (B : Cell → Vec), m'.SetTo oe (m.meshCells oe) (fun x j => gasAt (qe x) j) ∧
        m'.SetTo oi (m.meshCells oi) (fun x j => gasAt (qi x) j) ∧ m'.SetTo of (m.meshCells of) (fun x j => emState 0 (B x) j) ∧
        ∀ x, (qe x).rho = s.me * (if centre m.grid x 0 < 0 then s.nl else s.nr) ∧
          (qi x).rho = s.mi * (if centre m.grid x 0 < 0 then s.nl else s.nr) ∧ (qe x).mom = 0 ∧ (qi x).mom = 0 ∧
          (qe x).pressure s.gamma = (if centre m.grid x 0 < 0 then s.Pl else s.Pr) ∧
          (qi x).pressure s.gamma = (if centre m.grid x 0 < 0 then s.Pl else s.Pr) ∧
          B x 0 = s.Bx ∧ B x 2 = 0 ∧ B x 1 = (if centre m.grid x 0 < 0 then s.By else -s.By) / (s.gamma - 1) ∧
          (s.gamma = 2 → B x 1 = if centre m.grid x 0 < 0 then s.By else -s.By) := by
  obtain ⟨m', k1, k2, k3, k4, k5, k6, k7, k8⟩ := brio_all s h hL hg h3 he hi hf hei hef hif hp hpi hpf hn hni hnf
  have hg' : s.gamma - 1 ≠ 0 := sub_ne_zero.2 hgam
  have hz : (Arith.lit 0 : ℝ) = 0 := by simp [real_lit]
  refine ⟨m', k1, k2, k3, k4, k8, fun x => ⟨s.rhoE m.grid x, 0, s.enE m.grid x⟩, fun x => ⟨s.rhoI m.grid x, 0, s.enE m.grid x⟩,
    fun x => ![s.Bx, s.byF m.grid x, 0], ?_, ?_, ?_, ?_⟩
  · simp only [gasAt_rest, hz] at k5 ⊢; exact k5
  · simp only [gasAt_rest, hz] at k6 ⊢; exact k6
  · simp only [emState_xy, hz] at k7 ⊢
    convert k7 using 3 with x j
    by_cases j3 : j = 3
    · subst j3; simp
    · simp [j3]
  · intro x
    have hl : (Init.BrioWu.left m.grid x = true) ↔ centre m.grid x 0 < 0 := by
      unfold Init.BrioWu.left
      rw [real_lt, hz]
    have P : s.enE m.grid x = (if centre m.grid x 0 < 0 then s.Pl else s.Pr) / (s.gamma - 1) := by
      unfold Init.BrioWu.enE Init.BrioWu.pMult
      simp only [hl, real_lit]
      simp [div_eq_mul_inv]
    have Y : s.byF m.grid x = (if centre m.grid x 0 < 0 then s.By else -s.By) / (s.gamma - 1) := by
      unfold Init.BrioWu.byF Init.BrioWu.pMult
      simp only [hl, real_lit]
      split_ifs <;> simp [div_eq_mul_inv]
    refine ⟨?_, ?_, rfl, rfl, ?_, ?_, rfl, rfl, Y, ?_⟩
    · simp only [Init.BrioWu.rhoE, hl]
    · simp only [Init.BrioWu.rhoI, Init.BrioWu.rhoE, hl]
      field_simp
    · simp only [Gas.pressure, P, vdot]
      simp
      field_simp
    · simp only [Gas.pressure, P, vdot]
      simp
      field_simp
    · intro h2
      show s.byF m.grid x = _
      rw [Y, h2]
      norm_num

/-- **C63** (false) For `gamma ≠ 2` and `By ≠ 0`, the field component `By` is in no cell the one given. -/
theorem C63_By_false (s : Init.BrioWu ℝ) (hgam : s.gamma ≠ 1) (hgam2 : s.gamma ≠ 2) (hme : s.me ≠ 0) (hBy : s.By ≠ 0) (h : m.Good S) (hL : m.Laid)
    (hg : m.grid.Sized) (h3 : m.grid.rng.dims.length ≤ 3) {oe oi of : VarId} (he : S oe) (hi : S oi) (hf : S of) (hei : oe ≠ oi)
    (hef : oe ≠ of) (hif : oi ≠ of) (hp : 1 ≤ oe.basis.points) (hpi : oi.basis.points = oe.basis.points)
    (hpf : of.basis.points = oe.basis.points) (hn : 5 ≤ oe.comps.length) (hni : oi.comps.length = oe.comps.length) (hnf : 5 ≤ of.comps.length) :
    ∃ m' c, brioWu s [oe, oi, of] m = .ok () m' ∧ m'.contents of = some c ∧
      ∀ x, InBox (m.meshCells of) x → ∃ v, c.arr.val (x ++ [4]) = some v ∧ v ≠ (if centre m.grid x 0 < 0 then s.By else -s.By) := by
  obtain ⟨m', k1, _, _, _, _, qe, qi, B, _, _, ⟨c, c1, c2, _⟩, k⟩ :=
    C63_brio_wu_partial s hgam hme h hL hg h3 he hi hf hei hef hif hp hpi hpf hn hni hnf
  refine ⟨m', c, k1, c1, ?_⟩
  intro x hx
  refine ⟨_, c2 x hx 4 (by omega), ?_⟩
  have hb : B x 1 = (if centre m.grid x 0 < 0 then s.By else -s.By) / (s.gamma - 1) := (k x).2.2.2.2.2.2.2.2.1
  show B x 1 ≠ _
  rw [hb]
  have hg' : s.gamma - 1 ≠ 0 := sub_ne_zero.2 hgam
  have hv : (if centre m.grid x 0 < 0 then s.By else -s.By) ≠ 0 := by split_ifs <;> simpa using hBy
  intro e
  rw [div_eq_iff hg'] at e
  have : s.gamma - 1 = 1 := by
    have := mul_left_cancel₀ hv (show _ * 1 = _ * (s.gamma - 1) by rw [mul_one]; exact e)
    exact this.symm
  exact hgam2 (by linarith)

/-! ## C71 -/

/-- **C71** `gem_challenge::solve` sets, in every cell, ghost cells included: both fluids to the particle density
`n = n0 sech²(x/λ) + n1`, the pressures `n T` and momenta along `z` that belong to the current of the sheet; the magnetic field
to the sheet with its perturbation; the electric field and the rest of the field variable to zero. -/
theorem C71_gem (s : Init.Gem ℝ) (hgam : s.gamma ≠ 1) (hn0 : 0 < s.n0) (hn1 : 0 ≤ s.n1) (hme : 0 < s.me) (hmi : 0 < s.mi) (h : m.Good S) (hL : m.Laid) (hg : m.grid.Sized)
    (h3 : m.grid.rng.dims.length ≤ 3) {oe oi of : VarId} (he : S oe) (hi : S oi) (hf : S of) (hei : oe ≠ oi) (hef : oe ≠ of) (hif : oi ≠ of)
    (hp : 1 ≤ oe.basis.points) (hpi : oi.basis.points = oe.basis.points) (hpf : of.basis.points = oe.basis.points)
    (hn : 5 ≤ oe.comps.length) (hni : 5 ≤ oi.comps.length) (hnf : 5 ≤ of.comps.length) (more : List VarId) :
    ∃ m', gem s (oe :: oi :: of :: more) m = .ok () m' ∧ m'.Good S ∧ m'.Laid ∧ m.Extends m' ∧
      (∀ id, id ≠ oe → id ≠ oi → id ≠ of → m'.contents id = m.contents id) ∧
      ∃ (qe qi : Cell → Gas) (B : Cell → Vec), m'.SetTo oe (m.allCells oe) (fun x j => gasAt (qe x) j) ∧
        m'.SetTo oi (m.allCells oi) (fun x j => gasAt (qi x) j) ∧ m'.SetTo of (m.allCells of) (fun x j => emState 0 (B x) j) ∧
        ∀ x, let X := centre m.grid x 0
          let Y := if 1 < m.grid.rng.dims.length then centre m.grid x 1 else 0
          let n := sheetN s.n0 s.n1 s.lambda X
          (qe x).rho = s.me * n ∧ (qi x).rho = s.mi * n ∧ (qe x).mom 0 = 0 ∧ (qe x).mom 1 = 0 ∧ (qi x).mom 0 = 0 ∧ (qi x).mom 1 = 0 ∧
          s.qe / s.me * (qe x).mom 2 = sheetJ s.n0 s.qe s.Te s.B0 s.lambda X ∧
          s.qi / s.mi * (qi x).mom 2 = sheetJ s.n0 s.qi s.Ti s.B0 s.lambda X ∧
          (qe x).pressure s.gamma = n * s.Te ∧ (qi x).pressure s.gamma = n * s.Ti ∧
          B x 0 = sheetX (s.B0 / 10) (3.14159263 / s.Lx) (3.14159263 / s.Lx) X Y ∧
          B x 1 = sheetY s.B0 s.lambda (s.B0 / 10) (3.14159263 / s.Lx) (3.14159263 / s.Lx) X Y ∧ B x 2 = 0 := by
  obtain ⟨m', k1, k2, k3, k4, k5, k6, k7, k8⟩ := gem_all s h hL hg h3 he hi hf hei hef hif hp hpi hpf hn hni hnf more
  have h1 : 0 < m.grid.rng.dims.length := by
    have := h.mesh_ne
    cases hd : m.grid.rng.dims with
    | nil => exact absurd hd this
    | cons _ _ => simp
  have hg' : s.gamma - 1 ≠ 0 := sub_ne_zero.2 hgam
  have hz : (Arith.lit 0 : ℝ) = 0 := by simp [real_lit]
  set X := fun x : Cell => centre m.grid x 0 with hX
  set Y := fun x : Cell => if 1 < m.grid.rng.dims.length then centre m.grid x 1 else 0 with hY
  have eX : ∀ x, Init.gemCoord m.grid x 0 = X x := by intro x; simp [Init.gemCoord, h1, hX]
  have eY : ∀ x, Init.gemCoord m.grid x 1 = Y x := by intro x; simp only [Init.gemCoord, hY, hz]
  let fl := fun (mass T v : ℝ) (x : Cell) => (⟨(s.fluid mass T v (X x)).1, ![0, 0, (s.fluid mass T v (X x)).2.1], (s.fluid mass T v (X x)).2.2⟩ : Gas)
  have en : ∀ x, s.n (X x) = sheetN s.n0 s.n1 s.lambda (X x) := by
    intro x
    simp only [Init.Gem.n, Init.Gem.sech2, sheetN, real_lit, Arith.cosh]
    push_cast
    field_simp
  have npos : ∀ x, 0 < sheetN s.n0 s.n1 s.lambda (X x) := by
    intro x
    have := Real.cosh_pos (X x / s.lambda)
    unfold sheetN
    positivity
  have flu : ∀ (mass T v q : ℝ), 0 < mass → v = 2 * T / q / s.lambda / s.B0 → ∀ x,
      (fl mass T v x).rho = mass * sheetN s.n0 s.n1 s.lambda (X x) ∧
      q / mass * (fl mass T v x).mom 2 = sheetJ s.n0 q T s.B0 s.lambda (X x) ∧
      (fl mass T v x).pressure s.gamma = sheetN s.n0 s.n1 s.lambda (X x) * T := by
    intro mass T v q hm hv x
    have hN := npos x
    have hc := Real.cosh_pos (X x / s.lambda)
    have r : (fl mass T v x).rho = mass * sheetN s.n0 s.n1 s.lambda (X x) := by
      show mass * s.n (X x) = _
      rw [en]
    refine ⟨r, ?_, ?_⟩
    · show q / mass * (mass * s.n (X x) * v * s.uvar (X x)) = _
      have e : s.n (X x) * s.uvar (X x) = s.n0 / Real.cosh (X x / s.lambda) ^ 2 := by
        simp only [Init.Gem.n, Init.Gem.uvar, Init.Gem.sech2, real_lit, Arith.cosh]
        push_cast
        have : (1 / Real.cosh (X x / s.lambda) * (1 / Real.cosh (X x / s.lambda)) + s.n1 / s.n0) ≠ 0 := by positivity
        rw [mul_assoc, mul_div_cancel₀ _ this]
        field_simp
      rw [show q / mass * (mass * s.n (X x) * v * s.uvar (X x)) = (q / mass * mass) * v * (s.n (X x) * s.uvar (X x)) by ring, e,
        div_mul_cancel₀ _ hm.ne', hv]
      rfl
    · unfold Gas.pressure
      rw [r]
      show (s.gamma - 1) * ((s.fluid mass T v (X x)).2.2 - vdot ![0, 0, (s.fluid mass T v (X x)).2.1] ![0, 0, (s.fluid mass T v (X x)).2.1] / _) = _
      simp only [vdot, Init.Gem.fluid, en, real_lit]
      simp
      field_simp
      ring
  refine ⟨m', k1, k2, k3, k4, k8, fl s.me s.Te s.ue, fl s.mi s.Ti s.ui, fun x => ![s.fieldX (X x) (Y x), s.fieldY (X x) (Y x), 0], ?_, ?_, ?_, ?_⟩
  · simp only [fl, gasAt_z]
    convert k5 using 3 with x j
    simp only [Init.Gem.fluidAt, eX, hz]
  · simp only [fl, gasAt_z]
    convert k6 using 3 with x j
    simp only [Init.Gem.fluidAt, eX, hz]
  · simp only [emState_xy]
    convert k7 using 3 with x j
    simp only [Init.Gem.fieldAt, eX, eY, hz]
  · intro x
    have two : (Arith.ofInt 2 : ℝ) = 2 := by simp [real_ofInt]
    obtain ⟨a1, a2, a3⟩ := flu s.me s.Te s.ue s.qe hme (by simp only [Init.Gem.ue, two]) x
    obtain ⟨b1, b2, b3⟩ := flu s.mi s.Ti s.ui s.qi hmi (by simp only [Init.Gem.ui, two]) x
    have hkx : s.kx = 3.14159263 / s.Lx := by
      simp only [Init.Gem.kx, real_lit]; norm_num
    have hky : s.ky = 3.14159263 / s.Lx := by
      simp only [Init.Gem.ky, real_lit, two]
      push_cast
      rw [mul_div_mul_left _ _ (by norm_num)]
      norm_num
    have hB1 : s.B1 = s.B0 / 10 := by simp only [Init.Gem.B1, real_lit]; push_cast; ring
    refine ⟨a1, b1, rfl, rfl, rfl, rfl, a2, b2, a3, b3, ?_, ?_, rfl⟩
    · show s.fieldX (X x) (Y x) = _
      simp only [Init.Gem.fieldX, hkx, hky, hB1, sheetX]
      rfl
    · show s.fieldY (X x) (Y x) = _
      simp only [Init.Gem.fieldY, hkx, hky, hB1, sheetY]
      rfl

/-- **C71** The magnetic field has no divergence. -/
theorem C71_divergence (B0 lam B1 kx ky x y : ℝ) : ∃ dx dy, HasDerivAt (fun t => sheetX B1 kx ky t y) dx x ∧
    HasDerivAt (fun t => sheetY B0 lam B1 kx ky x t) dy y ∧ dx + dy = 0 := by
  have h1 : HasDerivAt (fun t : ℝ => kx * t) kx x := by simpa using (hasDerivAt_id x).const_mul kx
  have h2 : HasDerivAt (fun t : ℝ => ky * t) ky y := by simpa using (hasDerivAt_id y).const_mul ky
  exact ⟨_, _, ((h1.cos).const_mul (B1 * ky)).mul_const (Real.sin (ky * y)),
    ((h2.cos).const_mul (B1 * kx * Real.sin (kx * x))).const_sub (B0 * Real.tanh (x / lam)), by ring⟩

/-- **C71** Without the perturbation (`B1 = 0`) the sheet is in equilibrium: the gradient of the pressure of both fluids is the
force `J × B` of the currents along `z` on the field along `y`. -/
theorem C71_equilibrium {n0 n1 qe qi Te Ti B0 lam : ℝ} (hqe : qe ≠ 0) (hqi : qi ≠ 0) (hB : B0 ≠ 0) (kx ky x y : ℝ) :
    HasDerivAt (fun t => sheetN n0 n1 lam t * Te + sheetN n0 n1 lam t * Ti)
      (-(sheetJ n0 qe Te B0 lam x + sheetJ n0 qi Ti B0 lam x) * sheetY B0 lam 0 kx ky x y) x := by
  have hc := Real.cosh_pos (x / lam)
  have h1 : HasDerivAt (fun t : ℝ => t / lam) (1 / lam) x := (hasDerivAt_id x).div_const lam
  have h2 : HasDerivAt (fun t : ℝ => Real.cosh (t / lam) ^ 2) (2 * Real.cosh (x / lam) * (Real.sinh (x / lam) * (1 / lam))) x := by
    refine (h1.cosh.pow 2).congr_deriv ?_
    simp
  have hc2 : Real.cosh (x / lam) ^ 2 ≠ 0 := by positivity
  have h3 := (((hasDerivAt_const x n0).div h2 hc2).add_const n1)
  have h4 := (h3.mul_const Te).add (h3.mul_const Ti)
  refine h4.congr_deriv ?_
  unfold sheetJ sheetY
  rw [Real.tanh_eq_sinh_div_cosh]
  by_cases hl : lam = 0
  · subst hl; simp
  · field_simp
    simp
    ring

end

/-! ## Examples -/

theorem exThree_ok : exPlasma "e" 5 ∈ exPlasmaIds ∧ exPlasma "i" 5 ∈ exPlasmaIds ∧ exPlasma "f" 8 ∈ exPlasmaIds ∧
    exPlasma "e" 5 ≠ exPlasma "i" 5 ∧ exPlasma "e" 5 ≠ exPlasma "f" 8 ∧ exPlasma "i" 5 ≠ exPlasma "f" 8 := by
  simp [exPlasmaIds, exPlasma]

/-- `x` from -1 to 1 in four cells. -/
theorem exTube_manager : ∃ m : Mgr ℝ, m.Good (· ∈ exPlasmaIds) ∧ m.Laid ∧ m.grid = ⟨Range.setup [(0,4)], [-1], [2], [1/2]⟩ ∧ m.grid.Sized ∧
    m.grid.rng.dims.length ≤ 3 := by
  obtain ⟨m, h1, h2, h3⟩ := exInit_manager ⟨Range.setup [(0,4)], [-1], [2], [1/2]⟩ (by decide) (by decide)
  exact ⟨m, h1, h2, h3, by rw [h3]; exact ⟨rfl, rfl⟩, by rw [h3]; decide⟩

example : ∃ (m m' : Mgr ℝ) (qe qi : Cell → Gas) (B : Cell → Vec),
    brioWu ⟨5/3, 1/25, 1, 1, 1/8, 1/2, 1/20, 3/4, 1⟩ [exPlasma "e" 5, exPlasma "i" 5, exPlasma "f" 8] m = .ok () m' ∧
    m'.SetTo (exPlasma "e" 5) (m.meshCells (exPlasma "e" 5)) (fun x j => gasAt (qe x) j) ∧
    m'.SetTo (exPlasma "i" 5) (m.meshCells (exPlasma "i" 5)) (fun x j => gasAt (qi x) j) ∧
    m'.SetTo (exPlasma "f" 8) (m.meshCells (exPlasma "f" 8)) (fun x j => emState 0 (B x) j) ∧
    (qi [1, 0]).rho = 1 ∧ (qi [2, 0]).rho = 1/8 ∧ (qe [2, 0]).pressure (5/3) = 1/20 ∧ B [2, 0] 1 = -(3/2) := by
  obtain ⟨m, h1, h2, h3, h4, h5⟩ := exTube_manager
  obtain ⟨a, b, c, d, e, f⟩ := exThree_ok
  obtain ⟨m', k1, _, _, _, _, qe, qi, B, k5, k6, k7, k8⟩ := C63_brio_wu_partial ⟨5/3, 1/25, 1, 1, 1/8, 1/2, 1/20, 3/4, 1⟩ (by norm_num) (by norm_num) h1 h2 h4 h5
    a b c d e f (by decide) rfl rfl (by decide) rfl (by decide)
  have l : centre m.grid [1, 0] 0 < 0 := by norm_num [h3, centre, real_lit, real_ofInt]
  have r : ¬ centre m.grid [2, 0] 0 < 0 := by norm_num [h3, centre, real_lit, real_ofInt]
  refine ⟨m, m', qe, qi, B, k1, k5, k6, k7, ?_, ?_, ?_, ?_⟩
  · rw [(k8 _).2.1, if_pos l]; norm_num
  · rw [(k8 _).2.1, if_neg r]; norm_num
  · have := (k8 [2, 0]).2.2.2.2.1
    rw [if_neg r] at this
    exact this
  · rw [(k8 _).2.2.2.2.2.2.2.2.1, if_neg r]; norm_num

example : ∃ (m m' : Mgr ℝ) (c : Chunk ℝ),
    brioWu ⟨5/3, 1/25, 1, 1, 1/8, 1/2, 1/20, 3/4, 1⟩ [exPlasma "e" 5, exPlasma "i" 5, exPlasma "f" 8] m = .ok () m' ∧
    m'.contents (exPlasma "f" 8) = some c ∧ ∃ v, c.arr.val [2, 0, 4] = some v ∧ v ≠ -1 := by
  obtain ⟨m, h1, h2, h3, h4, h5⟩ := exTube_manager
  obtain ⟨a, b, c, d, e, f⟩ := exThree_ok
  obtain ⟨m', ch, k1, k2, k3⟩ := C63_By_false ⟨5/3, 1/25, 1, 1, 1/8, 1/2, 1/20, 3/4, 1⟩ (by norm_num) (by norm_num) (by norm_num) (by norm_num) h1 h2 h4 h5
    a b c d e f (by decide) rfl rfl (by decide) rfl (by decide)
  have r : ¬ centre m.grid [2, 0] 0 < 0 := by norm_num [h3, centre, real_lit, real_ofInt]
  obtain ⟨v, v1, v2⟩ := k3 [2, 0] (by unfold Mgr.meshCells; rw [h3]; decide)
  rw [if_neg r] at v2
  exact ⟨m, m', ch, k1, k2, v, v1, v2⟩

example : ∃ (m : Mgr ℝ) (e : String), brioWu ⟨5/3, 1/25, 1, 1, 1/8, 1/2, 1/20, 3/4, 1⟩ [exPlasma "e" 5, exPlasma "i" 5] m = .throw e m := by
  obtain ⟨m, _⟩ := exTube_manager
  obtain ⟨e, he⟩ := C37_brio_wu (m := m) ⟨5/3, 1/25, 1, 1, 1/8, 1/2, 1/20, 3/4, 1⟩ (outs := [exPlasma "e" 5, exPlasma "i" 5]) (by decide)
  exact ⟨m, e, he⟩

/-- The reconnection problem on 4 × 2 cells. -/
example : ∃ (m m' : Mgr ℝ) (qe : Cell → Gas), gem ⟨1/2, 1, 1, 1/5, 5/3, -1, 1, 1/25, 1, 1, 5, 1⟩ [exPlasma "e" 5, exPlasma "i" 5, exPlasma "f" 8] m = .ok () m' ∧
    m'.SetTo (exPlasma "e" 5) (m.allCells (exPlasma "e" 5)) (fun x j => gasAt (qe x) j) ∧
    (qe [1, 0, 0]).pressure (5/3) = 1 / Real.cosh (1/2) ^ 2 + 1/5 := by
  obtain ⟨m, h1, h2, h3⟩ := exInit_manager ⟨Range.setup [(0,4),(0,2)], [-1,0], [2,1], [1/2,1/2]⟩ (by decide) (by decide)
  obtain ⟨a, b, c, d, e, f⟩ := exThree_ok
  obtain ⟨m', k1, _, _, _, _, qe, qi, B, k5, k6, k7, k8⟩ := C71_gem ⟨1/2, 1, 1, 1/5, 5/3, -1, 1, 1/25, 1, 1, 5, 1⟩ (by norm_num) (by norm_num) (by norm_num)
    (by norm_num) (by norm_num) h1 h2 (by rw [h3]; exact ⟨rfl, rfl⟩) (by rw [h3]; decide) a b c d e f (by decide) rfl rfl (by decide) (by decide) (by decide) []
  refine ⟨m, m', qe, k1, k5, ?_⟩
  have := (k8 [1, 0, 0]).2.2.2.2.2.2.2.2.1
  simp only [] at this
  rw [this]
  have hc : centre m.grid [1, 0, 0] 0 = -(1/4) := by norm_num [h3, centre, real_lit, real_ofInt]
  rw [hc, sheetN, show -(1/4 : ℝ) / (1/2) = -(1/2) by norm_num, Real.cosh_neg]
  norm_num

example : ∃ (m : Mgr ℝ) (w : String), gem ⟨1/2, 1, 1, 1/5, 5/3, -1, 1, 1/25, 1, 1, 5, 1⟩ [exPlasma "e" 5, exPlasma "f" 8] m = .ub w := by
  obtain ⟨m, h1, h2, h3, h4, h5⟩ := exTube_manager
  obtain ⟨w, hw⟩ := C73_false ⟨1/2, 1, 1, 1/5, 5/3, -1, 1, 1/25, 1, 1, 5, 1⟩ h1 h2 (outs := [exPlasma "e" 5, exPlasma "f" 8])
    (by intro id hid; simp at hid; rcases hid with rfl | rfl <;> simp [exPlasmaIds]) (by decide)
  exact ⟨m, w, hw⟩

example : ∃ (m : Mgr ℝ) (w : String), gem ⟨1/2, 1, 1, 1/5, 5/3, -1, 1, 1/25, 1, 1, 5, 1⟩ [exPlasma "e" 5, exPlasma "e" 5, exPlasma "f" 8] m = .ub w := by
  obtain ⟨m, h1, h2, h3, h4, h5⟩ := exTube_manager
  obtain ⟨a, b, c, _⟩ := exThree_ok
  obtain ⟨w, hw⟩ := C73_alias_false ⟨1/2, 1, 1, 1/5, 5/3, -1, 1, 1/25, 1, 1, 5, 1⟩ h1 h2 a a c (.inl rfl)
  exact ⟨m, w, hw⟩

example (x y : ℝ) : ∃ dx dy, HasDerivAt (fun t => sheetX 1 2 3 t y) dx x ∧ HasDerivAt (fun t => sheetY 1 (1/2) 1 2 3 x t) dy y ∧ dx + dy = 0 :=
  C71_divergence 1 (1/2) 1 2 3 x y

example (x y : ℝ) := C71_equilibrium (n0 := 1) (n1 := 1/5) (qe := -1) (qi := 1) (Te := 1) (Ti := 5) (B0 := 1) (lam := 1/2)
  (by norm_num) (by norm_num) (by norm_num) 2 3 x y

end QK.Props
