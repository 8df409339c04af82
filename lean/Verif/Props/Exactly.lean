import Verif.Props.Indexer
import Verif.Props.BC
import Verif.Props.RangeSet
import Verif.Props.Variable
import Verif.Props.Grid
import Verif.Props.Kernels
import Verif.Props.Advection
import Verif.Props.InitialMany
import Verif.Props.Container
import Verif.Props.SelfAssign
/- Where a property fails, the exact condition for it to hold: C09, C14, C17, C28, C32, C35, C46, C52, C57, C63, C73, C78. -/
namespace QK.Props
open QK Spec

/-- **C09**, exactly: a loop whose body always completes comes to an end precisely if the sub-range is not inside the
super-range, if there are no dimensions, or if no dimension of the sub-range is empty. Otherwise it does not end. -/
theorem C09_exactly {sub sup : Range} {σ : Type} (body : Indexer → σ → Res σ) (hbody : ∀ i s, ∃ s', body i s = .ok s') (s : σ) :
    ((∃ s', (Indexer.make sub sup).forEach body s = .ok s') ↔
      sup.includes sub = false ∨ sup.numDims = 0 ∨ ∀ d ∈ sub.dims, d.1 < d.2) ∧
    ((Indexer.make sub sup).forEach body s = .diverge ↔
      sup.includes sub = true ∧ 0 < sup.numDims ∧ ∃ d ∈ sub.dims, d.2 ≤ d.1) := by
  have fold : ∀ (L : List Cell) (f : Cell → Indexer) (s : σ), ∃ s', L.foldlM (fun s c => body (f c) s) s = .ok s' := by
    intro L f
    induction L with
    | nil => intro s; exact ⟨s, rfl⟩
    | cons c L ih =>
      intro s
      obtain ⟨s1, h1⟩ := hbody (f c) s
      obtain ⟨s2, h2⟩ := ih s1
      exact ⟨s2, by rw [List.foldlM_cons, h1, Res.ok_bind, h2]⟩
  have returns : sup.includes sub = false ∨ sup.numDims = 0 ∨ (∀ d ∈ sub.dims, d.1 < d.2) →
      ∃ s', (Indexer.make sub sup).forEach body s = .ok s' := by
    intro h
    by_cases h0 : sup.includes sub = false ∨ sup.numDims = 0
    · exact ⟨s, C07_foreign h0 body s⟩
    · rw [not_or, Bool.not_eq_false] at h0
      have hp : Pos sub.dims := by
        rcases h with h | h | h
        · rw [h0.1] at h; cases h
        · exact absurd h h0.2
        · exact h
      rw [Indexer.forEach_make (List.length_pos_iff.1 (Nat.pos_of_ne_zero h0.2)) (Range.includes_iff.1 h0.1) hp]
      exact fold _ _ _
  have loops : ¬ (sup.includes sub = false ∨ sup.numDims = 0 ∨ ∀ d ∈ sub.dims, d.1 < d.2) →
      sup.includes sub = true ∧ 0 < sup.numDims ∧ ∃ d ∈ sub.dims, d.2 ≤ d.1 := by
    intro h
    rw [not_or, not_or, Bool.not_eq_false] at h
    obtain ⟨h1, h2, h3⟩ := h
    push Not at h3
    exact ⟨h1, Nat.pos_of_ne_zero h2, h3⟩
  constructor
  · refine ⟨fun ⟨s', e⟩ => ?_, returns⟩
    by_contra hc
    obtain ⟨h1, h2, h3⟩ := loops hc
    rw [C09_empty_subrange_false h2 h1 h3 body hbody s] at e
    cases e
  · refine ⟨fun e => ?_, fun ⟨h1, h2, h3⟩ => C09_empty_subrange_false h2 h1 h3 body hbody s⟩
    refine loops fun hc => ?_
    obtain ⟨s', e'⟩ := returns hc
    rw [e] at e'
    cases e'

-- counting the iterations of an empty slice, and of one that is not empty
example : (Indexer.make (Range.setup [(2, 2)]) (Range.setup [(0, 4)])).forEach (fun _ (n : Nat) => .ok (n + 1)) 0 = .diverge :=
  (C09_exactly _ (fun _ _ => ⟨_, rfl⟩) 0).2.2 (by decide)
example : ∃ n, (Indexer.make (Range.setup [(2, 4)]) (Range.setup [(0, 4)])).forEach (fun _ (n : Nat) => .ok (n + 1)) 0 = .ok n :=
  (C09_exactly _ (fun _ _ => ⟨_, rfl⟩) 0).1.2 (by decide)

/-- **C28**, exactly: the ghost cells after `bc_free_slip` are the free-slip mirror values precisely if the tangential momenta in
the cells next to the walls are all zero. -/
theorem C28_exactly {c : Chunk ℝ} {g : Int} {M D : Box} (h : c.Layout g M D) (hg : 1 ≤ g) (hM : Pos M) (hD : Pos D) (hDn : D ≠ [])
    (hlo : lo D (D.length - 1) ≤ 1) (hhi : 4 ≤ hi D (D.length - 1)) {ds : List Nat} (hds : Wide g M ds) (h3 : M.length ≤ 3) :
    ∃ c', BC.freeSlip (· * ·) (-1) (ints ds) c = .ok c' ∧
      ((∀ i ∈ ds, ∀ x, FaceGhost g (M ++ D) i x → c'.arr.val x =
        if component x = i + 1 then (c.arr.val (mirrorImage g (M ++ D) i x)).map (fun v => -v)
        else c.arr.val (mirrorImage g (M ++ D) i x)) ↔
      ∀ i ∈ ds, ∀ x, FaceGhost g (M ++ D) i x → 1 ≤ component x → component x ≤ 3 → component x ≠ i + 1 →
        ∀ v, c.arr.val (mirrorImage g (M ++ D) i x) = some v → v = 0) := by
  obtain ⟨c', h1, _, h4, _⟩ := C26_no_slip (· * ·) (-1 : ℝ) h hg hM hD hDn hlo hhi hds
  refine ⟨c', h1, ?_⟩
  have neg : ∀ o : Option ℝ, o.map (fun v => v * -1) = o.map (fun v => -v) := by
    intro o; cases o <;> simp
  constructor
  · intro H i hi x hx a b ne v hv
    have e1 := H i hi x hx
    rw [h4 i hi x hx, if_pos (by omega), if_neg ne, hv, Option.map_some, Option.some.injEq] at e1
    linarith
  · intro H i hi x hx
    have hil := (hds i hi).1
    rw [h4 i hi x hx]
    by_cases e : component x = i + 1
    · rw [if_pos (by omega), if_pos e, neg]
    · rw [if_neg e]
      split_ifs with k
      · cases hv : c.arr.val (mirrorImage g (M ++ D) i x) with
        | none => rfl
        | some v =>
          have := H i hi x hx (by omega) (by omega) e v hv
          simp [this]
      · rfl

theorem tiles_fits : ∀ {B : Box} {subs : List Int}, Small B subs →
    (∀ k, InBox (subs.map (fun n => ((0:Int), n))) k → ∀ d ∈ tiles B subs k, d.1 ≤ d.2) → Fits B subs := by
  intro B subs hs
  have last : ∀ {B : Box} {subs : List Int}, Small B subs → InBox (subs.map (fun n => ((0:Int), n))) (subs.map (fun n => n - 1)) := by
    intro B subs hs
    induction hs with
    | nil => exact .nil
    | cons h1 _ ih => refine .cons ?_ ih; have := h1.2.2.1; simp only; omega
  have key : ∀ {B : Box} {subs : List Int}, Small B subs →
      (∀ d ∈ tiles B subs (subs.map (fun n => n - 1)), d.1 ≤ d.2) → Fits B subs := by
    intro B subs hs
    induction hs with
    | nil => intro _; exact .nil
    | @cons d n B subs h1 h2 ih =>
      intro H
      unfold tiles at H
      rw [List.zip_cons_cons, List.map_cons, List.map_cons, RangeSet.bounds] at H
      refine .cons ?_ (ih fun e he => H e (List.mem_cons_of_mem _ he))
      have := H _ List.mem_cons_self
      simp only at this
      have h := this.trans (min_le_right _ _)
      omega
  exact fun H => key hs (H _ (last hs))

/-- **C32**, exactly: the pieces of a range set are all well-formed precisely if in every dimension the pieces before the last,
of `⌈len/n⌉` cells, fit into the range. -/
theorem C32_exactly {rnd : ℚ → ℚ} (h : Round32 rnd) {sup : Range} {subs : List Int} (hd : 0 < sup.numDims)
    (hs : Small sup.dims subs) :
    ∃ g, RangeSet.make rnd sup subs = .ok g ∧
      ((∀ k r, InBox g.rng.dims k → g.val k = some r → ∀ d ∈ r.dims, d.1 ≤ d.2) ↔ Fits sup.dims subs) := by
  obtain ⟨g, h1, _, h3, h4⟩ := setup_spec h ⟨.empty, []⟩ hd hs
  refine ⟨g, h1, fun H => ?_, fun hf k r hk hr => ?_⟩
  · refine tiles_fits hs fun k hk => ?_
    have := H k _ (by rw [h3]; exact hk) (h4 k hk)
    simpa using this
  · rw [h3] at hk
    rw [h4 k hk] at hr
    cases hr
    simpa using tiles_wf hs hf hk

/-- **C35**, exactly: two ids are each less than the other precisely if they share name and components, and the basis that
comes first by name has more points. -/
theorem C35_exactly (a b : VarId) : (a.lt b = .ok true ∧ b.lt a = .ok true) ↔
    a.name = b.name ∧ a.comps = b.comps ∧
      ((a.basis.name < b.basis.name ∧ b.basis.points < a.basis.points) ∨
        (b.basis.name < a.basis.name ∧ a.basis.points < b.basis.points)) := by
  unfold VarId.lt
  rcases lt_trichotomy a.name b.name with h | h | h
  · simp [h, ne_of_lt h, not_lt_of_gt h]
  · by_cases hc : a.comps = b.comps
    · have hc' := hc.symm
      simp only [h, lt_irrefl, if_false, hc, ne_eq, not_true_eq_false, Res.ok.injEq, true_and, Basis.lt]
      rcases lt_trichotomy a.basis.name b.basis.name with k | k | k
      · simp [k, not_lt_of_gt k]
      · simp [k]; omega
      · simp [k, not_lt_of_gt k]
    · simp [h, hc]
  · simp [h, ne_of_gt h, not_lt_of_gt h]

theorem truncReal_eq_iff (x : ℝ) : (truncReal x : ℝ) = x ↔ ∃ z : ℤ, x = z := by
  constructor
  · intro h; exact ⟨_, h.symm⟩
  · rintro ⟨z, rfl⟩
    unfold truncReal
    split_ifs <;> simp

/-- **C46**, width part, exactly: with an exponent of at least 1 the biased cell widths sum to the width precisely if the width is
an even integer (symmetric bias) or an integer (linear bias). -/
theorem C46_exactly {g g' : Structured ℝ} (h : g.Made) {d : Int} {p : ℝ} (hp : 1 ≤ p) :
    (Structured.biasSymmetric g d p = .ok g' → ∃ w dl, vget g.widths d = .ok w ∧ g'.dxs[d.toNat]? = some dl ∧
      (dl.sum = w ↔ ∃ z : ℤ, w = 2 * z)) ∧
    (Structured.biasLinear g d p = .ok g' → ∃ w dl, vget g.widths d = .ok w ∧ g'.dxs[d.toNat]? = some dl ∧
      (dl.sum = w ↔ ∃ z : ℤ, w = z)) := by
  obtain ⟨h1, h2⟩ := C46_widths_partial (g' := g') h (d := d) hp
  constructor
  · intro hb
    obtain ⟨w, dl, a, b, c⟩ := h1 hb
    refine ⟨w, dl, a, b, ?_⟩
    rw [c]
    have : 2 * (truncReal (w / 2) : ℝ) = w ↔ (truncReal (w / 2) : ℝ) = w / 2 := by
      constructor <;> intro e <;> linarith
    rw [this, truncReal_eq_iff]
    refine exists_congr fun z => ?_
    constructor <;> intro e <;> linarith
  · intro hb
    obtain ⟨w, dl, a, b, c⟩ := h2 hb
    exact ⟨w, dl, a, b, by rw [c, truncReal_eq_iff]⟩

/-- **C52**, exactly: the Euler kernel stays within its arrays precisely on meshes of at most four dimensions. -/
theorem C52_exactly {α : Type} [Arith α] {q rhs : Chunk α} {g : Int} {M : Box} {p : Nat} {grid : Rectilinear α} (gamma : α)
    (hM : Pos M) (hp : 1 ≤ p) (hg : 2 ≤ g)
    (hq : q.Layout g M [(0, (p : Int)), (0, 5)]) (hr : rhs.Layout g M [(0, (p : Int)), (0, 5)])
    (hgr : grid.rng.dims = M) (hdx : grid.dxs.length = M.length) :
    (∃ r, Euler.solveMp gamma grid q rhs = .ok r) ↔ M.length ≤ 4 := by
  constructor
  · rintro ⟨r, e⟩
    by_contra hc
    obtain ⟨w, e'⟩ := C52_euler_false gamma hM (by omega) hp hg hq hr hgr hdx
    rw [e'] at e
    cases e
  · intro h4
    exact (C52_euler_in_bounds_partial gamma hM h4 hp hg hq hr hgr hdx).1

/-- **C57**, exactly: a loop of `advection_iterate` whose elements all exist gives the sequential result under every
interleaving precisely if it has at most `|s|` iterations, `s` the stride. -/
theorem C57_exactly {α : Type} [Arith α] {coeff : α} {start stop s : Int} (hs : s ≠ 0) {m m' : Mem α} {A : Int → α}
    (hready : ∀ i, start ≤ i → i < stop → Advection.Ready m A s i)
    (hr : Prog.runAll (Advection.iterate start stop s coeff) m = .ok m') :
    ParallelSafe (Advection.iterate start stop s coeff) m m' ↔ stop - start ≤ |s| := by
  refine ⟨fun hsafe => ?_, fun h => C57_partial h hr⟩
  by_contra hc
  have get : ∀ k : Nat, start + k < stop →
      (Advection.iterate start stop s coeff)[k]? = some (Advection.iteration coeff s (start + k)) := by
    intro k hk
    unfold Advection.iterate Advection.indices
    simp only [List.getElem?_map, List.getElem?_range (show k < (stop - start).toNat by omega), Option.map_some]
  have race : ∃ ps' m1, Relation.ReflTransGen Prog.Step (Advection.iterate start stop s coeff, m) (ps', m1) ∧ Prog.Race ps' := by
    rcases lt_or_gt_of_ne hs with h | h
    · rw [abs_of_neg h] at hc
      refine iteration_race (e := start - s) (s := s) (coeff := coeff) hs (hready _ (by omega) (by omega))
        (hready _ (by omega) (by omega)) (i := 0) (j := (-s).toNat) ?_ ?_ (by omega)
      · rw [get 0 (by omega)]; simp
      · rw [get _ (by omega), Int.toNat_of_nonneg (by omega)]; rfl
    · rw [abs_of_pos h] at hc
      refine iteration_race (e := start) (s := s) (coeff := coeff) hs (hready _ (by omega) (by omega))
        (hready _ (by omega) (by omega)) (i := s.toNat) (j := 0) ?_ ?_ (by omega)
      · rw [get _ (by omega), Int.toNat_of_nonneg h.le]
      · rw [get 0 (by omega)]; simp
  obtain ⟨ps', m1, h1, h2⟩ := race
  exact hsafe.raceFree _ _ h1 h2

section
open Mgr Solve
variable {S : VarId → Prop} {m : Mgr ℝ}

/-- **C63**, exactly: the field component `By` set by `brio_wu_shock_tube` is the one given, in any cell, precisely if `gamma = 2`
or `By = 0`. -/
theorem C63_exactly (s : Init.BrioWu ℝ) (hgam : s.gamma ≠ 1) (hme : s.me ≠ 0) (h : m.Good S) (hL : m.Laid)
    (hg : m.grid.Sized) (h3 : m.grid.rng.dims.length ≤ 3) {oe oi of : VarId} (he : S oe) (hi : S oi) (hf : S of) (hei : oe ≠ oi)
    (hef : oe ≠ of) (hif : oi ≠ of) (hp : 1 ≤ oe.basis.points) (hpi : oi.basis.points = oe.basis.points)
    (hpf : of.basis.points = oe.basis.points) (hn : 5 ≤ oe.comps.length) (hni : oi.comps.length = oe.comps.length) (hnf : 5 ≤ of.comps.length) :
    ∃ m' c, brioWu s [oe, oi, of] m = .ok () m' ∧ m'.contents of = some c ∧
      ∀ x, InBox (m.meshCells of) x →
        (c.arr.val (x ++ [4]) = some (if centre m.grid x 0 < 0 then s.By else -s.By) ↔ s.gamma = 2 ∨ s.By = 0) := by
  obtain ⟨m', k1, _, _, _, _, qe, qi, B, _, _, ⟨c, c1, c2, _⟩, k⟩ :=
    C63_brio_wu_partial s hgam hme h hL hg h3 he hi hf hei hef hif hp hpi hpf hn hni hnf
  refine ⟨m', c, k1, c1, ?_⟩
  intro x hx
  have hb : B x 1 = (if centre m.grid x 0 < 0 then s.By else -s.By) / (s.gamma - 1) := (k x).2.2.2.2.2.2.2.2.1
  have hv : c.arr.val (x ++ [4]) = some (B x 1) := c2 x hx 4 (by omega)
  have hg' : s.gamma - 1 ≠ 0 := sub_ne_zero.2 hgam
  rw [hv, Option.some.injEq, hb, div_eq_iff hg']
  generalize hw : (if centre m.grid x 0 < 0 then s.By else -s.By) = w
  have hw0 : w = 0 ↔ s.By = 0 := by
    rw [← hw]; split_ifs <;> simp
  rw [← hw0]
  constructor
  · intro e
    by_cases h0 : w = 0
    · exact .inr h0
    · left
      have := mul_left_cancel₀ h0 (show w * 1 = w * (s.gamma - 1) by rw [mul_one]; exact e)
      linarith
  · rintro (e | e)
    · rw [e]; ring
    · rw [e]; ring

end

section
open Mgr Solve
variable {α : Type} [Arith α] {S : VarId → Prop} {m : Mgr α}

/-- **C73**, what holds: with at least three output variables, the first three different, with five components or more and as
many points, `gem_challenge::solve` returns. Missing: fewer than three, or equal ones (`C73_false`, `C73_alias_false`). -/
theorem C73_partial (s : Init.Gem α) (h : m.Good S) (hL : m.Laid) (hg : m.grid.Sized) (h3 : m.grid.rng.dims.length ≤ 3)
    {oe oi of : VarId} (he : S oe) (hi : S oi) (hf : S of) (hd : [oe, oi, of].Nodup)
    (hp : 1 ≤ oe.basis.points) (hpi : oi.basis.points = oe.basis.points) (hpf : of.basis.points = oe.basis.points)
    (hn : ∀ id ∈ [oe, oi, of], 5 ≤ id.comps.length) (more : List VarId) :
    ∃ m', gem s (oe :: oi :: of :: more) m = .ok () m' ∧ m'.Good S ∧ m'.Laid := by
  simp only [List.nodup_cons, List.mem_cons, not_or, List.not_mem_nil, not_false_eq_true, and_true, List.nodup_nil] at hd
  obtain ⟨m', k1, k2, k3, _⟩ := gem_all s h hL hg h3 he hi hf hd.1.1 hd.1.2 hd.2 hp hpi hpf (hn oe (by simp))
    (hn oi (by simp)) (hn of (by simp)) more
  exact ⟨m', k1, k2, k3⟩

/-- **C73**, exactly: for up to three output variables with five components or more and equally many points,
`gem_challenge::solve` returns precisely if there are three and they are different. -/
theorem C73_exactly (s : Init.Gem α) (h : m.Good S) (hL : m.Laid) (hg : m.grid.Sized) (h3 : m.grid.rng.dims.length ≤ 3)
    {outs : List VarId} (hS : ∀ id ∈ outs, S id) {p : Int} (hp : 1 ≤ p) (hpts : ∀ id ∈ outs, id.basis.points = p)
    (hn : ∀ id ∈ outs, 5 ≤ id.comps.length) (hlen : outs.length ≤ 3) :
    (∃ m', gem s outs m = .ok () m') ↔ outs.length = 3 ∧ outs.Nodup := by
  by_cases hlt : outs.length < 3
  · obtain ⟨w, e⟩ := C73_false s h hL hS hlt
    rw [e]
    simp only [reduceCtorEq, exists_false, false_iff]
    omega
  · match outs, hlen, hlt with
    | [oe, oi, of], _, _ =>
      by_cases hd : [oe, oi, of].Nodup
      · simp only [hd, and_true, List.length_cons, List.length_nil]
        simp only [List.mem_cons, List.not_mem_nil, or_false, forall_eq_or_imp, forall_eq] at hS hpts hn
        obtain ⟨m', e, _⟩ := C73_partial s h hL hg h3 hS.1 hS.2.1 hS.2.2 hd (by omega) (by omega) (by omega)
          (by simp only [List.mem_cons, List.not_mem_nil, or_false, forall_eq_or_imp, forall_eq]; exact hn) []
        exact ⟨fun _ => trivial, fun _ => ⟨m', e⟩⟩
      · simp only [List.mem_cons, List.not_mem_nil, or_false, forall_eq_or_imp, forall_eq] at hS
        have heq : oe = oi ∨ oe = of ∨ oi = of := by
          by_contra hc
          rw [not_or, not_or] at hc
          exact hd (by simp [hc.1, hc.2.1, hc.2.2])
        obtain ⟨w, e⟩ := C73_alias_false s h hL hS.1 hS.2.1 hS.2.2 heq
        rw [e]
        simp [hd]
    | [], _, h => simp at h
    | [_], _, h => simp at h
    | [_, _], _, h => simp at h

end

/-- The `k`-th cells of both containers have the same value, for all `k`. -/
def SameOrder {α : Type} (a b : IFace α) : Prop :=
  ∀ (k : Nat) (x y : Cell), (cells a.rng.dims)[k]? = some x → (cells b.rng.dims)[k]? = some y → a.val x = b.val y

/-- **C14**, exactly: `a.pull(b)` for containers of equal volume makes the `k`-th cell of `a` equal to the `k`-th cell of `b`, for all `k`, precisely if the ranges are equal or the values were equal before. -/
theorem C14_exactly {α : Type} {zero : α} {dst src : IFace α} (hd : dst.Made zero) (hs : src.Made zero) (hdp : Pos dst.rng.dims) (hn : 0 < dst.rng.numDims) (hsn : 0 < src.rng.numDims)
    (hvol : dst.rng.volume = src.rng.volume) :
    (∃ g, dst.pullAll (some src) = .ok g ∧ g.rng = dst.rng ∧ SameOrder g src) ↔ dst.rng.dims = src.rng.dims ∨ SameOrder dst src := by
  by_cases he : dst.rng.dims = src.rng.dims
  · obtain ⟨g, e, er, ev⟩ := C14_pull_all_partial hd hs hdp hn (Range.eqv_iff.2 he)
    refine ⟨fun _ => .inl he, fun _ => ⟨g, e, er, fun k x y hx hy => ?_⟩⟩
    rw [er] at hx
    rw [← he, hx] at hy
    cases hy
    exact ev x (mem_cells.1 (List.mem_of_getElem? hx))
  · have e := C14_pull_all_false hd hs hdp hsn hvol (by rw [Bool.eq_false_iff]; exact fun h => he (Range.eqv_iff.1 h))
    rw [e]
    constructor
    · rintro ⟨g, hg, -, h⟩
      cases hg
      exact .inr h
    · rintro (h | h)
      · exact absurd h he
      · exact ⟨dst, rfl, rfl, h⟩

/-- **C17**, exactly: a copy-constructed container has the contents of the original precisely if these are all zero. -/
theorem C17_exactly {α : Type} {zero : α} {f : IFace α} (h : f.Made zero) (hn : 0 < f.rng.numDims) :
    (∃ g, IFace.copyCtor zero f = .ok g ∧ ∀ c, InBox f.rng.dims c → g.val c = f.val c) ↔ ∀ c, InBox f.rng.dims c → f.val c = some zero := by
  obtain ⟨g, e, -, hv⟩ := C17_copy_ctor_drops_contents h hn
  rw [e]
  constructor
  · rintro ⟨g', hg, h'⟩ c hc
    cases hg
    rw [← h' c hc, hv c hc]
  · intro h'
    exact ⟨g, rfl, fun c hc => by rw [hv c hc, h' c hc]⟩

/-- **C78**, exactly: `r = r` keeps the bounds of a range precisely if they are all 0. -/
theorem C78_exactly (r : Range) : (∃ q, r.assignSelf = .ok q ∧ q.dims = r.dims) ↔ ∀ d ∈ r.dims, d = (0, 0) := by
  obtain ⟨q, e, hq⟩ := C78_range_false r
  rw [e]
  constructor
  · rintro ⟨q', h, h'⟩ d hd
    cases h
    rw [hq] at h'
    rw [← h'] at hd
    exact (List.mem_replicate.1 hd).2
  · intro h
    exact ⟨q, rfl, by rw [hq]; exact (List.eq_replicate_iff.2 ⟨rfl, h⟩).symm⟩

-- C14: two containers of volume 12, of shapes 4 × 3 and 3 × 4
example : ¬ ∃ g, (⟨Range.setup [(0, 4), (0, 3)], [0,0,0,0,0,0,0,0,0,0,0,0]⟩ : IFace Int).pullAll (some demo) = .ok g ∧ g.rng = Range.setup [(0, 4), (0, 3)] ∧ SameOrder g demo := by
  have hm : IFace.Made (0 : Int) ⟨Range.setup [(0, 4), (0, 3)], [0,0,0,0,0,0,0,0,0,0,0,0]⟩ := .make (.ofLengths (n := 2) (d := [4, 3]) rfl) rfl
  rw [C14_exactly hm demo_made (by decide) (by decide) (by decide) (by decide)]
  rintro (h | h)
  · exact absurd h (by decide)
  · exact absurd (h 0 [0, 0] [0, 0] (by decide) (by decide)) (by decide)

-- C17: a container with other values than zero
example : ¬ ∃ g, IFace.copyCtor 0 demo = .ok g ∧ ∀ c, InBox demo.rng.dims c → g.val c = demo.val c := by
  rw [C17_exactly demo_made (by decide)]
  intro h
  exact absurd (h [0, 0] (by decide)) (by decide)

-- C78: a range with bounds (0, 3)
example : ¬ ∃ q, (Range.setup [(0, 3)]).assignSelf = .ok q ∧ q.dims = (Range.setup [(0, 3)]).dims := by
  rw [C78_exactly]; decide

end QK.Props
