import Verif.Proofs.Initial
/-
Helper lemmas about initial conditions that write several variables (Model/Initial.lean, `brioWu`, `gem`).
-/
namespace QK
open Spec
namespace Init
variable {α : Type} [Arith α]

/-- Apply a function to one element of one of several chunks. -/
def app (cs : List (Chunk α)) (u : Nat × Cell × (α → α)) : List (Chunk α) :=
  cs.modify u.1 fun c => { c with arr := c.arr.upd u.2 }

/-- Chunks with the ranges of given ones. -/
def Like (cs0 cs : List (Chunk α)) : Prop :=
  List.Forall₂ (fun c0 c => c.arr.WF ∧ c = { c0 with arr := c.arr } ∧ c.arr.rng = c0.arr.rng) cs0 cs

theorem Like.app {cs0 cs : List (Chunk α)} (h : Like cs0 cs) (u : Nat × Cell × (α → α)) : Like cs0 (app cs u) := by
  obtain ⟨p, y, f⟩ := u
  unfold Like Init.app at *
  induction h generalizing p with
  | nil => simp
  | @cons c0 c l0 l h1 h2 ih =>
    cases p with
    | zero =>
      simp only [List.modify_zero_cons]
      exact .cons ⟨IFace.upd_wf h1.1 _, by rw [h1.2.1], by rw [IFace.upd_rng]; exact h1.2.2⟩ h2
    | succ p =>
      simp only [List.modify_succ_cons]
      exact .cons h1 (ih p)

theorem Like.foldl {cs0 cs : List (Chunk α)} (h : Like cs0 cs) (U : List (Nat × Cell × (α → α))) : Like cs0 (U.foldl Init.app cs) := by
  induction U generalizing cs with
  | nil => exact h
  | cons u U ih => exact ih (h.app u)

theorem Like.get {cs0 cs : List (Chunk α)} (h : Like cs0 cs) {p : Nat} {c0 : Chunk α} (h0 : cs0[p]? = some c0) :
    ∃ c, cs[p]? = some c ∧ c.arr.WF ∧ c = { c0 with arr := c.arr } ∧ c.arr.rng = c0.arr.rng := by
  unfold Like at h
  induction h generalizing p with
  | nil => simp at h0
  | @cons a b l0 l h1 h2 ih =>
    cases p with
    | zero => simp at h0; subst h0; exact ⟨b, by simp, h1⟩
    | succ p => simpa using ih (by simpa using h0)

theorem app_self {cs : List (Chunk α)} {p : Nat} {c : Chunk α} (hc : cs[p]? = some c) (y : Cell) (f : α → α) :
    app cs (p, y, f) = cs.set p { c with arr := c.arr.upd (y, f) } := by
  unfold app
  rw [List.modify_eq_set_getElem?, hc]
  rfl

/-- The chunk at a position after a sequence of updates. -/
theorem foldl_app_get (U : List (Nat × Cell × (α → α))) {cs : List (Chunk α)} {p : Nat} {c : Chunk α} (hc : cs[p]? = some c) :
    (U.foldl app cs)[p]? = some { c with arr := ((U.filter (fun u => u.1 == p)).map Prod.snd).foldl IFace.upd c.arr } := by
  induction U generalizing cs c with
  | nil => exact hc
  | cons u U ih =>
    obtain ⟨q, y, f⟩ := u
    rw [List.foldl_cons]
    by_cases hq : q = p
    · subst hq
      have : (app cs (q, y, f))[q]? = some { c with arr := c.arr.upd (y, f) } := by
        have hlt := (List.getElem?_eq_some_iff.1 hc).1
        rw [app_self hc, List.getElem?_set_self (by simpa using hlt)]
      rw [ih this]
      simp
    · have : (app cs (q, y, f))[p]? = some c := by
        unfold app
        simp only []
        rw [List.getElem?_modify, hc]
        simp [hq]
      rw [ih this]
      simp [hq]

/-- A loop whose rounds are updates of single elements of several chunks. -/
theorem foldlM_app {ι : Type} {cs0 : List (Chunk α)} (ups : ι → List (Nat × Cell × (α → α)))
    {body : ι → List (Chunk α) → Res (List (Chunk α))} {L : List ι} {cs : List (Chunk α)} (h : Like cs0 cs)
    (hb : ∀ i ∈ L, ∀ cs, Like cs0 cs → body i cs = .ok ((ups i).foldl app cs)) :
    L.foldlM (fun cs i => body i cs) cs = .ok ((L.flatMap ups).foldl app cs) := by
  induction L generalizing cs with
  | nil => rfl
  | cons i L ih =>
    rw [List.foldlM_cons, hb i List.mem_cons_self cs h, Res.ok_bind, ih (h.foldl _) (fun j hj => hb j (List.mem_cons_of_mem _ hj)),
      List.flatMap_cons, List.foldl_append]

theorem putAt_eq {cs0 cs : List (Chunk α)} (h : Like cs0 cs) {p : Nat} {c0 : Chunk α} (h0 : cs0[p]? = some c0)
    (hn : c0.arr.rng.dims ≠ []) {y : Cell} (hy : InBox c0.arr.rng.dims y) {idx : Indexer} (hi : idx.linear = offset c0.arr.rng.dims y) (v : α) :
    putAt cs p idx v = .ok (app cs (p, y, fun _ => v)) := by
  obtain ⟨c, hc, hwf, -, hr⟩ := h.get h0
  have hlt := (List.getElem?_eq_some_iff.1 hc).1
  unfold putAt IFace.put
  rw [vget_ok hc, Res.ok_bind, set_eq hwf (by rw [hr]; exact hn) (by rw [hr]; exact hy) (by rw [hi, hr]) v]
  simp only [Res.ok_bind, Res.pure_eq]
  rw [vset_nat hlt, app_self hc]
  congr 2
  rw [← IFace.upd_rng c.arr (y, fun _ => v)]

theorem fillAt_eq {cs : List (Chunk α)} {p : Nat} {c : Chunk α} (hc : cs[p]? = some c) (v : α) :
    fillAt cs p v = .ok (cs.set p { c with arr := c.arr.fill v }) := by
  unfold fillAt
  rw [vget_ok hc, Res.ok_bind, vset_nat (List.getElem?_eq_some_iff.1 hc).1]

theorem fillSub_eq {a : IFace α} (hwf : a.WF) {sub : Box} (hn : a.rng.dims ≠ []) (hw : Range.Within a.rng.dims sub) (hp : Pos sub) (v : α) :
    a.fillSub (Range.setup sub) v = .ok (((cells sub).map fun y => (y, fun _ => v)).foldl IFace.upd a) := by
  unfold IFace.fillSub IFace.indexer
  rw [if_neg (by rw [Bool.not_eq_false, Range.includes_iff]; exact hw), Indexer.forEach_make hn hw hp]
  simp only [Range.setup_dims]
  refine Source.foldlM_upd' a (fun y => (y, fun _ => v)) (body := fun y b => b.put (Indexer.onCell sub a.rng.dims y) v) hwf ?_
  intro y hy b hb hr
  have hin : InBox b.rng.dims y := by rw [hr]; exact Range.Within.mem hw (mem_cells.1 hy)
  obtain ⟨r, hv⟩ := IFace.val_isSome hb (by rw [hr]; exact hn) hin
  rw [← hr, IFace.put_onCell hb (by rw [hr]; exact hn) hin]
  unfold IFace.upd
  simp only [hv]

/-! ### brio_wu_shock_tube -/

/-- Values `brioWu` writes in a cell. -/
def BrioWu.left (g : Rectilinear α) (x : Cell) : Bool := Arith.lt (centre g x 0) (Arith.lit 0)
def BrioWu.rhoE (s : BrioWu α) (g : Rectilinear α) (x : Cell) : α := s.me * (if BrioWu.left g x then s.nl else s.nr)
def BrioWu.rhoI (s : BrioWu α) (g : Rectilinear α) (x : Cell) : α := s.rhoE g x * s.mi / s.me
def BrioWu.enE (s : BrioWu α) (g : Rectilinear α) (x : Cell) : α := (if BrioWu.left g x then s.Pl else s.Pr) * s.pMult
def BrioWu.byF (s : BrioWu α) (g : Rectilinear α) (x : Cell) : α :=
  s.By * (if BrioWu.left g x then Arith.lit 1 else Arith.lit (-1)) * s.pMult

section
variable {g : Rectilinear α} {gh : Int} {M : Box} {p n nf : Nat}

theorem coord0_onCell (hg : g.Sized) (h3 : g.rng.dims.length ≤ 3) (h1 : 1 ≤ g.rng.dims.length) {sub sup : Box}
    {x : Cell} {l : Int} (hx : g.rng.dims.length < x.length) : ∃ cx, coords g (Indexer.onCell sub sup (x ++ [l])) = .ok cx ∧
      coord cx 0 = .ok (centre g x 0) := by
  refine ⟨_, coords_onCell hg h3 hx, ?_⟩
  rw [← Nat.cast_zero, coord_ok (i := 0) (by omega) (by omega), centre_append _ (by omega)]

theorem brioWu_eq (s : BrioWu α) (hg : g.Sized) (hgm : g.rng.dims = M) (h3 : M.length ≤ 3) (h1 : 1 ≤ M.length) (hgh : 0 ≤ gh) (hM : Pos M) (hp : 1 ≤ p)
    (hn : 5 ≤ n) (hnf : 5 ≤ nf) {ce ci cf : Chunk α} (le : ce.Layout gh M [(0, (p : Int)), (0, (n : Int))])
    (li : ci.Layout gh M [(0, (p : Int)), (0, (n : Int))]) (lf : cf.Layout gh M [(0, (p : Int)), (0, (nf : Int))]) :
    let L := cells (M ++ [(0, (p : Int))])
    let upd := fun (c : Chunk α) (U : List (Cell × α)) =>
      ({ c with arr := (U.map fun q => (q.1, fun _ => q.2)).foldl IFace.upd (c.arr.fill (Arith.lit 0)) } : Chunk α)
    brioWu s g 0 1 2 [ce, ci, cf] = .ok
      [upd ce (L.map (fun x => (x ++ [0], s.rhoE g x)) ++ L.map (fun x => (x ++ [4], s.enE g x))),
       upd ci (L.map (fun x => (x ++ [0], s.rhoI g x)) ++ L.map (fun x => (x ++ [4], s.enE g x))),
       upd cf (L.map (fun x => (x ++ [4], s.byF g x)) ++ L.map (fun x => (x ++ [3], s.Bx)))] := by
  intro L upd
  have fe := le.sameShape (fill_sameShape ce (Arith.lit 0))
  have fi := li.sameShape (fill_sameShape ci (Arith.lit 0))
  have ff := lf.sameShape (fill_sameShape cf (Arith.lit 0))
  set ce0 : Chunk α := { ce with arr := ce.arr.fill (Arith.lit 0) } with hce0
  set ci0 : Chunk α := { ci with arr := ci.arr.fill (Arith.lit 0) } with hci0
  set cf0 : Chunk α := { cf with arr := cf.arr.fill (Arith.lit 0) } with hcf0
  have hlike : Like [ce0, ci0, cf0] [ce0, ci0, cf0] :=
    .cons ⟨fe.wf, rfl, rfl⟩ (.cons ⟨fi.wf, rfl, rfl⟩ (.cons ⟨ff.wf, rfl, rfl⟩ .nil))
  have hnd : ∀ {c : Chunk α} {k : Nat}, c.Layout gh M [(0, (p : Int)), (0, (k : Int))] →
      (c.arr.rng.numDims : Int) - 1 = ((M ++ [(0, (p : Int))]).length : Nat) := by
    intro c k hl
    unfold Range.numDims
    rw [hl.dims]; simp [grow]; omega
  have hset : ∀ {c : Chunk α} {k : Nat} (l u : Int), c.Layout gh M [(0, (p : Int)), (0, (k : Int))] →
      c.internal.copy.set ((M ++ [(0, (p : Int))]).length : Nat) l u = .ok (Range.setup ((M ++ [(0, (p : Int))]) ++ [(l, u)])) := by
    intro c k l u hl
    rw [hl.internal, Range.copy_setup, set_setup (by simp), FV.layout_split, FV.snoc_slab]
  have hpos : ∀ l : Int, Pos ((M ++ [(0, (p : Int))]) ++ [(l, l + 1)]) := by
    intro l
    rw [pos_append]
    exact ⟨pos_snoc hM (by omega), by intro d hd; simp at hd; subst hd; simp⟩
  have hwi : ∀ {c : Chunk α} {k : Nat} (l : Int), c.Layout gh M [(0, (p : Int)), (0, (k : Int))] → 0 ≤ l → l < k →
      Range.Within c.arr.rng.dims ((M ++ [(0, (p : Int))]) ++ [(l, l + 1)]) := by
    intro c k l hl h0 hk
    rw [hl.dims, FV.layout_split]
    have := FV.within_grow (M := M) hgh [(0, (p : Int))]
    unfold Range.Within at this ⊢
    refine List.rel_append this ?_
    simp; omega
  have hne : ∀ {c : Chunk α} {k : Nat}, c.Layout gh M [(0, (p : Int)), (0, (k : Int))] → c.arr.rng.dims ≠ [] := by
    intro c k hl; rw [hl.dims]; simp
  have hin : ∀ {c : Chunk α} {k : Nat}, c.Layout gh M [(0, (p : Int)), (0, (k : Int))] → ∀ x, InBox (M ++ [(0, (p : Int))]) x →
      ∀ l : Int, 0 ≤ l → l < k → InBox c.arr.rng.dims (x ++ [l]) := by
    intro c k hl x hx l h0 hk
    have hxg := inBox_interior hgh hx
    rw [hl.dims, FV.layout_split]
    exact (inBox_snoc hxg.length_eq).2 ⟨hxg, h0, hk⟩
  have hlen : ∀ x, InBox (M ++ [(0, (p : Int))]) x → g.rng.dims.length < x.length := by
    intro x hx
    have := hx.length_eq
    rw [hgm]; simp at this; omega
  have hdims : ce0.arr.rng.dims = ci0.arr.rng.dims := by rw [fe.dims, fi.dims]
  have g3 : g.rng.dims.length ≤ 3 := by rw [hgm]; exact h3
  have g1 : 1 ≤ g.rng.dims.length := by rw [hgm]; exact h1
  -- the loops
  have loop1 : ∀ cs, Like [ce0, ci0, cf0] cs → (ce0.arr.indexer (Range.setup ((M ++ [(0, (p : Int))]) ++ [(0, 0 + 1)]))).forEach (brioRho s g 0 1) cs =
      .ok ((L.flatMap fun x => [(0, x ++ [0], fun _ => s.rhoE g x), (1, x ++ [0], fun _ => s.rhoI g x)]).foldl app cs) := by
    intro cs hcs
    unfold IFace.indexer
    rw [Indexer.forEach_make (hne fe) (hwi 0 fe (by omega) (by omega)) (hpos 0)]
    simp only [Range.setup_dims]
    rw [Source.cells_snoc_one, List.foldlM_map]
    refine foldlM_app _ (body := fun x cs => brioRho s g 0 1 (Indexer.onCell ((M ++ [(0, (p : Int))]) ++ [(0, 0 + 1)]) ce0.arr.rng.dims (x ++ [0])) cs) hcs ?_
    intro x hx cs hcs
    rw [mem_cells] at hx
    obtain ⟨cx, e1, e2⟩ := coord0_onCell hg g3 g1 (sub := (M ++ [(0, (p : Int))]) ++ [(0, 0 + 1)]) (sup := ce0.arr.rng.dims) (l := 0) (hlen x hx)
    unfold brioRho
    rw [e1, Res.ok_bind, e2, Res.ok_bind]
    simp only []
    rw [putAt_eq hcs (p := 0) (c0 := ce0) rfl (hne fe) (hin fe x hx 0 (by omega) (by omega)) rfl, Res.ok_bind,
      putAt_eq (hcs.app _) (p := 1) (c0 := ci0) rfl (hne fi) (hin fi x hx 0 (by omega) (by omega)) (by rw [← hdims]; rfl)]
    rfl
  have loop2 : ∀ cs, Like [ce0, ci0, cf0] cs → (ce0.arr.indexer (Range.setup ((M ++ [(0, (p : Int))]) ++ [(4, 4 + 1)]))).forEach (brioEnergy s g 0 1) cs =
      .ok ((L.flatMap fun x => [(0, x ++ [4], fun _ => s.enE g x), (1, x ++ [4], fun _ => s.enE g x)]).foldl app cs) := by
    intro cs hcs
    unfold IFace.indexer
    rw [Indexer.forEach_make (hne fe) (hwi 4 fe (by omega) (by omega)) (hpos 4)]
    simp only [Range.setup_dims]
    rw [Source.cells_snoc_one, List.foldlM_map]
    refine foldlM_app _ (body := fun x cs => brioEnergy s g 0 1 (Indexer.onCell ((M ++ [(0, (p : Int))]) ++ [(4, 4 + 1)]) ce0.arr.rng.dims (x ++ [4])) cs) hcs ?_
    intro x hx cs hcs
    rw [mem_cells] at hx
    obtain ⟨cx, e1, e2⟩ := coord0_onCell hg g3 g1 (sub := (M ++ [(0, (p : Int))]) ++ [(4, 4 + 1)]) (sup := ce0.arr.rng.dims) (l := 4) (hlen x hx)
    unfold brioEnergy
    rw [e1, Res.ok_bind, e2, Res.ok_bind]
    simp only []
    rw [putAt_eq hcs (p := 0) (c0 := ce0) rfl (hne fe) (hin fe x hx 4 (by omega) (by omega)) rfl, Res.ok_bind,
      putAt_eq (hcs.app _) (p := 1) (c0 := ci0) rfl (hne fi) (hin fi x hx 4 (by omega) (by omega)) (by rw [← hdims]; rfl)]
    rfl
  have loop3 : ∀ cs, Like [ce0, ci0, cf0] cs → (cf0.arr.indexer (Range.setup ((M ++ [(0, (p : Int))]) ++ [(4, 4 + 1)]))).forEach (brioBy s g 2) cs =
      .ok ((L.flatMap fun x => [(2, x ++ [4], fun _ => s.byF g x)]).foldl app cs) := by
    intro cs hcs
    unfold IFace.indexer
    rw [Indexer.forEach_make (hne ff) (hwi 4 ff (by omega) (by omega)) (hpos 4)]
    simp only [Range.setup_dims]
    rw [Source.cells_snoc_one, List.foldlM_map]
    refine foldlM_app _ (body := fun x cs => brioBy s g 2 (Indexer.onCell ((M ++ [(0, (p : Int))]) ++ [(4, 4 + 1)]) cf0.arr.rng.dims (x ++ [4])) cs) hcs ?_
    intro x hx cs hcs
    rw [mem_cells] at hx
    obtain ⟨cx, e1, e2⟩ := coord0_onCell hg g3 g1 (sub := (M ++ [(0, (p : Int))]) ++ [(4, 4 + 1)]) (sup := cf0.arr.rng.dims) (l := 4) (hlen x hx)
    unfold brioBy
    rw [e1, Res.ok_bind, e2, Res.ok_bind]
    simp only []
    rw [putAt_eq hcs (p := 2) (c0 := cf0) rfl (hne ff) (hin ff x hx 4 (by omega) (by omega)) rfl]
    rfl
  unfold brioWu
  rw [fillAt_eq (c := ce) rfl, Res.ok_bind, fillAt_eq (c := ci) rfl, Res.ok_bind, fillAt_eq (c := cf) rfl, Res.ok_bind]
  rw [show ((([ce, ci, cf].set 0 ce0).set 1 ci0).set 2 cf0) = [ce0, ci0, cf0] from rfl]
  rw [show vget [ce0, ci0, cf0] ((0 : Nat) : Int) = .ok ce0 from rfl, Res.ok_bind]
  simp only []
  rw [hnd fe, hset 0 1 fe, Res.ok_bind]
  set U1 := L.flatMap fun x => [(0, x ++ [0], fun _ : α => s.rhoE g x), (1, x ++ [0], fun _ => s.rhoI g x)] with hU1
  set U2 := L.flatMap fun x => [(0, x ++ [4], fun _ : α => s.enE g x), (1, x ++ [4], fun _ => s.enE g x)] with hU2
  set U3 := L.flatMap fun x => [(2, x ++ [4], fun _ : α => s.byF g x)] with hU3
  have l1 := loop1 _ hlike
  rw [show (0 : Int) + 1 = 1 from rfl] at l1
  have k1 := hlike.foldl U1
  have l2 := loop2 _ k1
  rw [show (4 : Int) + 1 = 5 from rfl] at l2
  have k2 := k1.foldl U2
  rw [l1, Res.ok_bind, hset 4 5 fe, Res.ok_bind, l2, Res.ok_bind]
  have hf2 : (U2.foldl app (U1.foldl app [ce0, ci0, cf0]))[2]? = some cf0 := by
    rw [← List.foldl_append, foldl_app_get _ (c := cf0) rfl]
    have : (U1 ++ U2).filter (fun u => u.1 == 2) = [] := by
      rw [List.filter_eq_nil_iff]
      intro u hu
      rw [List.mem_append, hU1, hU2, List.mem_flatMap, List.mem_flatMap] at hu
      rcases hu with ⟨x, _, hu⟩ | ⟨x, _, hu⟩ <;> simp at hu <;> rcases hu with rfl | rfl <;> simp
    rw [this]; rfl
  rw [vget_ok hf2, Res.ok_bind, hset 4 5 ff, Res.ok_bind]
  have l3 := loop3 _ k2
  rw [show (4 : Int) + 1 = 5 from rfl] at l3
  rw [l3, Res.ok_bind, hset 3 4 ff, Res.ok_bind]
  have hU3' : (U3.filter (fun u => u.1 == 2)).map Prod.snd = L.map fun x => (x ++ [4], fun _ : α => s.byF g x) := by
    rw [hU3, List.filter_eq_self.2 (by intro u hu; rw [List.mem_flatMap] at hu; obtain ⟨x, _, hu⟩ := hu; simp at hu; subst hu; simp)]
    rw [List.map_flatMap]
    simp [List.flatMap_def]
    induction L with
    | nil => rfl
    | cons a t ih => simp [ih]
  have hf3 := foldl_app_get U3 hf2
  rw [hU3'] at hf3
  rw [vget_ok hf3, Res.ok_bind]
  have hr3 : ((L.map fun x => (x ++ [4], fun _ : α => s.byF g x)).foldl IFace.upd cf0.arr).rng = cf0.arr.rng := IFace.foldl_upd_rng _ _
  have w3 := hwi 3 ff (by omega) (by omega)
  rw [← hr3] at w3
  have hfs := fillSub_eq (IFace.foldl_upd_wf (L.map fun x => (x ++ [4], fun _ : α => s.byF g x)) ff.wf) (by rw [hr3]; exact hne ff) w3 (hpos 3) s.Bx
  rw [Source.cells_snoc_one, List.map_map] at hfs
  rw [show (3 : Int) + 1 = 4 from rfl] at hfs
  simp only []
  rw [hfs, Res.ok_bind, vset_nat (List.getElem?_eq_some_iff.1 hf3).1]
  congr 1
  have hlen3 : (U3.foldl app (U2.foldl app (U1.foldl app [ce0, ci0, cf0]))).length = 3 := by
    have := (k2.foldl U3).length_eq
    simpa using this.symm
  have hall : U3.foldl app (U2.foldl app (U1.foldl app [ce0, ci0, cf0])) = (U1 ++ U2 ++ U3).foldl app [ce0, ci0, cf0] := by
    rw [List.foldl_append, List.foldl_append]
  have hfilt : ∀ (q : Nat) (l : List Cell) (a b : Nat) (F G : Cell → Cell × (α → α)), a ≠ b →
      ((l.flatMap fun x => [(a, F x), (b, G x)]).filter (fun u => u.1 == q)).map Prod.snd =
        if q = a then l.map F else if q = b then l.map G else [] := by
    intro q l a b F G hab
    induction l with
    | nil => simp
    | cons x l ih =>
      rw [List.flatMap_cons, List.filter_append, List.map_append, ih]
      by_cases h1 : q = a
      · subst h1; simp [Ne.symm hab]
      · by_cases h2 : q = b
        · subst h2; simp [hab, h1]
        · simp [h1, h2, Ne.symm h1, Ne.symm h2]
  have hU3n : ∀ q, q ≠ 2 → (U3.filter (fun u => u.1 == q)).map Prod.snd = [] := by
    intro q hq
    rw [List.map_eq_nil_iff, List.filter_eq_nil_iff]
    intro u hu
    rw [hU3, List.mem_flatMap] at hu
    obtain ⟨x, _, hu⟩ := hu
    simp at hu; subst hu; simp [Ne.symm hq]
  have get0 := foldl_app_get (U1 ++ U2 ++ U3) (cs := [ce0, ci0, cf0]) (p := 0) (c := ce0) rfl
  have get1 := foldl_app_get (U1 ++ U2 ++ U3) (cs := [ce0, ci0, cf0]) (p := 1) (c := ci0) rfl
  rw [← hall, List.filter_append, List.filter_append, List.map_append, List.map_append, hU3n 0 (by decide), hU1, hU2,
    hfilt 0 L 0 1 (fun x => (x ++ [0], fun _ : α => s.rhoE g x)) (fun x => (x ++ [0], fun _ : α => s.rhoI g x)) (by decide),
    hfilt 0 L 0 1 (fun x => (x ++ [4], fun _ : α => s.enE g x)) (fun x => (x ++ [4], fun _ : α => s.enE g x)) (by decide)] at get0
  rw [← hall, List.filter_append, List.filter_append, List.map_append, List.map_append, hU3n 1 (by decide), hU1, hU2,
    hfilt 1 L 0 1 (fun x => (x ++ [0], fun _ : α => s.rhoE g x)) (fun x => (x ++ [0], fun _ : α => s.rhoI g x)) (by decide),
    hfilt 1 L 0 1 (fun x => (x ++ [4], fun _ : α => s.enE g x)) (fun x => (x ++ [4], fun _ : α => s.enE g x)) (by decide)] at get1
  rw [← hU1, ← hU2] at get0 get1
  obtain ⟨a, b, c, hl3⟩ : ∃ a b c, U3.foldl app (U2.foldl app (U1.foldl app [ce0, ci0, cf0])) = [a, b, c] := by
    match h : U3.foldl app (U2.foldl app (U1.foldl app [ce0, ci0, cf0])), hlen3 with
    | [a, b, c], _ => exact ⟨a, b, c, rfl⟩
  rw [hl3] at get0 get1 ⊢
  simp only [if_true, List.append_nil, List.getElem?_cons_zero, Option.some.injEq, List.getElem?_cons_succ] at get0 get1
  simp only [List.set_cons_succ, List.set_cons_zero, List.cons.injEq, and_true]
  refine ⟨?_, ?_, ?_⟩
  · rw [get0]
    simp only [upd, List.map_append, List.map_map, Function.comp_def, hce0]
  · rw [get1]
    simp [upd, List.map_append, List.map_map, Function.comp_def, hci0]
  · simp only [upd, List.map_append, List.map_map, Function.comp_def, hcf0, List.foldl_append]
    rfl

/-- Values of an array that was filled and then got its interior components `a` and `b`. -/
theorem pair_spec {c : Chunk α} (hgh : 0 ≤ gh) (hl : c.Layout gh M [(0, (p : Int)), (0, (n : Int))]) {a b : Nat} (hab : a ≠ b) (ha : a < n) (hb : b < n)
    (F G : Cell → α) (f : Cell → Nat → α) (hf : ∀ x j, f x j = if j = a then F x else if j = b then G x else Arith.lit 0) :
    ∃ c' : Chunk α, c' = { c with arr := (((cells (M ++ [(0, (p : Int))])).map (fun x => (x ++ [(a : Int)], F x)) ++
        (cells (M ++ [(0, (p : Int))])).map (fun x => (x ++ [(b : Int)], G x))).map fun q => (q.1, fun _ => q.2)).foldl IFace.upd (c.arr.fill (Arith.lit 0)) } ∧
      c.SameShape c' ∧ c'.Holds (M ++ [(0, (p : Int))]) n f ∧
      ∀ y, InBox (grow gh M ++ [(0, (p : Int)), (0, (n : Int))]) y → ¬ InBox (M ++ [(0, (p : Int))]) y.dropLast → c'.arr.val y = some (Arith.lit 0) := by
  set L := cells (M ++ [(0, (p : Int))]) with hL
  set U := (L.map (fun x => (x ++ [(a : Int)], F x)) ++ L.map (fun x => (x ++ [(b : Int)], G x))).map
    fun q : Cell × α => (q.1, fun _ : α => q.2) with hU
  have hs := fill_sameShape c (Arith.lit 0 : α)
  have hl1 := hl.sameShape hs
  have hmem : ∀ q ∈ U, ∃ x, InBox (M ++ [(0, (p : Int))]) x ∧ (q = (x ++ [(a : Int)], fun _ => F x) ∨ q = (x ++ [(b : Int)], fun _ => G x)) := by
    intro q hq
    rw [hU, List.map_append, List.map_map, List.map_map, List.mem_append, List.mem_map, List.mem_map] at hq
    rcases hq with ⟨x, hx, rfl⟩ | ⟨x, hx, rfl⟩
    · exact ⟨x, mem_cells.1 hx, .inl rfl⟩
    · exact ⟨x, mem_cells.1 hx, .inr rfl⟩
  have hin : ∀ x, InBox (M ++ [(0, (p : Int))]) x → ∀ j : Nat, j < n →
      InBox (grow gh M ++ [(0, (p : Int)), (0, (n : Int))]) (x ++ [(j : Int)]) := by
    intro x hx j hj
    have hxg := inBox_interior hgh hx
    rw [FV.layout_split]
    exact (inBox_snoc hxg.length_eq).2 ⟨hxg, by omega, by omega⟩
  have hnd : (U.map Prod.fst).Nodup := by
    rw [hU, List.map_map, List.map_append, List.map_map, List.map_map, List.nodup_append]
    have inj : ∀ k : Int, Function.Injective (fun x : Cell => x ++ [k]) := fun k x y e => (List.append_inj' e rfl).1
    refine ⟨(cells_nodup _).map (inj a), (cells_nodup _).map (inj b), ?_⟩
    intro y hy z hz e
    obtain ⟨x, _, rfl⟩ := List.mem_map.1 hy
    obtain ⟨x', _, rfl⟩ := List.mem_map.1 hz
    have := (List.append_inj' e rfl).2
    simp at this
    exact hab this
  obtain ⟨h1, h2⟩ := IFace.foldl_upd U (a := c.arr.fill (Arith.lit 0)) hl1.wf (by
    show c.arr.rng.dims ≠ []
    rw [hl.dims]; simp) (by
      intro q hq
      show InBox c.arr.rng.dims q.1
      rw [hl.dims]
      obtain ⟨x, hx, rfl | rfl⟩ := hmem q hq
      · exact hin x hx a ha
      · exact hin x hx b hb) hnd
  have hz : ∀ y, InBox (grow gh M ++ [(0, (p : Int)), (0, (n : Int))]) y → (c.arr.fill (Arith.lit 0 : α)).val y = some (Arith.lit 0) := by
    intro y hy
    exact val_fill hl.wf (by rw [hl.dims]; simp) (by rw [hl.dims]; exact hy)
  have hrng : (c.arr.fill (Arith.lit 0 : α)).rng.dims = grow gh M ++ [(0, (p : Int)), (0, (n : Int))] := hl1.dims
  refine ⟨_, rfl, ?_, ?_, ?_⟩
  · exact hs.trans (IFace.foldl_upd_sameShape U _)
  · intro x hx j hj
    simp only []
    rw [hf]
    have memU : ∀ (k : Nat) (H : Cell → α), (k = a ∧ H = F) ∨ (k = b ∧ H = G) → ((x ++ [(k : Int)], fun _ : α => H x) : Cell × (α → α)) ∈ U := by
      intro k H hk
      rw [hU, List.map_append, List.map_map, List.map_map, List.mem_append, List.mem_map, List.mem_map]
      rcases hk with ⟨rfl, rfl⟩ | ⟨rfl, rfl⟩
      · exact .inl ⟨x, mem_cells.2 hx, rfl⟩
      · exact .inr ⟨x, mem_cells.2 hx, rfl⟩
    by_cases ja : j = a
    · subst ja
      rw [if_pos rfl]
      have := h1 _ (memU j F (.inl ⟨rfl, rfl⟩))
      simp only [] at this
      rw [this, hz _ (hin x hx j hj)]; rfl
    · rw [if_neg ja]
      by_cases jb : j = b
      · subst jb
        rw [if_pos rfl]
        have := h1 _ (memU j G (.inr ⟨rfl, rfl⟩))
        simp only [] at this
        rw [this, hz _ (hin x hx j hj)]; rfl
      · rw [if_neg jb, h2 _ (by rw [hrng]; exact hin x hx j hj), hz _ (hin x hx j hj)]
        intro hm
        obtain ⟨q, hq, e⟩ := List.mem_map.1 hm
        obtain ⟨x', _, rfl | rfl⟩ := hmem q hq
        · have := (List.append_inj' e rfl).2
          simp at this; omega
        · have := (List.append_inj' e rfl).2
          simp at this; omega
  · intro y hy hyn
    simp only []
    rw [h2 y (by rw [hrng]; exact hy), hz y hy]
    intro hm
    obtain ⟨q, hq, rfl⟩ := List.mem_map.1 hm
    obtain ⟨x', hx', rfl | rfl⟩ := hmem q hq <;> exact hyn (by simpa using hx')

end

/-! ### gem_challenge -/

theorem forThree_lockstep {σ : Type} {A s1 s2 s3 : Box} (h1 : A.length = s1.length) (h2 : A.length = s2.length) (h3 : A.length = s3.length)
    (hp : Pos A) (body : Indexer → Indexer → Indexer → σ → Res σ) :
    ∀ (L pre : List Cell) (a : Cell) (s : σ), cells A = pre ++ a :: L →
    forThree (Indexer.onCell A s1 a) (Indexer.onCell A s2 a) (Indexer.onCell A s3 a) body s =
      (a :: L).foldlM (fun s x => body (Indexer.onCell A s1 x) (Indexer.onCell A s2 x) (Indexer.onCell A s3 x) s) s := by
  intro L
  induction L with
  | nil =>
    intro pre a s hA
    unfold forThree
    rw [iter_unfold, if_pos (by rfl)]
    simp only [List.foldlM_cons, List.foldlM_nil, Indexer.next_last h1 hp hA, Indexer.next_last h2 hp hA, Indexer.next_last h3 hp hA]
    simp only [Res.ok_bind, bind_assoc, Res.pure_eq]
    congr 1
    funext s'
    rw [iter_unfold]; rfl
  | cons b L ih =>
    intro pre a s hA
    unfold forThree
    rw [iter_unfold, if_pos (by rfl)]
    rw [List.foldlM_cons]
    simp only [Indexer.next_chain h1 hp hA, Indexer.next_chain h2 hp hA, Indexer.next_chain h3 hp hA]
    simp only [Res.ok_bind, bind_assoc, Res.pure_eq]
    congr 1
    funext s'
    have := ih (pre ++ [a]) b s' (by simpa using hA)
    unfold forThree at this
    exact this

theorem forThree_make {σ : Type} {A s1 s2 s3 : Range} (n1 : s1.dims ≠ []) (n2 : s2.dims ≠ []) (n3 : s3.dims ≠ [])
    (w1 : Range.Within s1.dims A.dims) (w2 : Range.Within s2.dims A.dims) (w3 : Range.Within s3.dims A.dims) (hp : Pos A.dims)
    (body : Indexer → Indexer → Indexer → σ → Res σ) (s : σ) :
    forThree (Indexer.make A s1) (Indexer.make A s2) (Indexer.make A s3) body s =
      (cells A.dims).foldlM (fun s x => body (Indexer.onCell A.dims s1.dims x) (Indexer.onCell A.dims s2.dims x) (Indexer.onCell A.dims s3.dims x) s) s := by
  obtain ⟨-, ⟨r, hr⟩, -⟩ := cells_chain A.dims hp
  rw [Indexer.make_eq_at n1 w1, Indexer.make_eq_at n2 w2, Indexer.make_eq_at n3 w3, hr]
  exact forThree_lockstep w1.length_eq.symm w2.length_eq.symm w3.length_eq.symm hp body r [] _ s hr

/-- A loop on three arrays that runs through when three loops on one array each do. -/
theorem foldlM3 {ι σ : Type} {r1 r2 r3 : σ → ι → Res σ} {body : σ × σ × σ → ι → Res (σ × σ × σ)} {L : List ι}
    (h : ∀ i ∈ L, ∀ a b c a' b' c', r1 a i = .ok a' → r2 b i = .ok b' → r3 c i = .ok c' → body (a, b, c) i = .ok (a', b', c')) :
    ∀ {a b c A B C : σ}, L.foldlM r1 a = .ok A → L.foldlM r2 b = .ok B → L.foldlM r3 c = .ok C →
      L.foldlM body (a, b, c) = .ok (A, B, C) := by
  induction L with
  | nil =>
    intro a b c A B C h1 h2 h3
    simp only [List.foldlM_nil, Res.pure_eq, Res.ok.injEq] at *
    rw [h1, h2, h3]
  | cons i L ih =>
    intro a b c A B C h1 h2 h3
    rw [List.foldlM_cons] at h1 h2 h3
    obtain ⟨a', a1, a2⟩ := Res.bind_eq_ok.1 h1
    obtain ⟨b', b1, b2⟩ := Res.bind_eq_ok.1 h2
    obtain ⟨c', c1, c2⟩ := Res.bind_eq_ok.1 h3
    rw [List.foldlM_cons, h i List.mem_cons_self _ _ _ _ _ _ a1 b1 c1, Res.ok_bind]
    exact ih (fun j hj => h j (List.mem_cons_of_mem _ hj)) a2 b2 c2

/-- Coordinates of a cell centre in an array that starts as zeros. -/
def gemCoord (g : Rectilinear α) (x : Cell) (i : Nat) : α := if i < g.rng.dims.length then centre g x i else Arith.lit 0

/-- What `gem` writes in a cell of a fluid and of the field. -/
def Gem.fluidVals (s : Gem α) (m T v : α) (g : Rectilinear α) (x : Cell) : List (Int × α) :=
  let F := s.fluid m T v (gemCoord g x 0)
  [(0, F.1), (3, F.2.1), (4, F.2.2)]
def Gem.fieldVals (s : Gem α) (g : Rectilinear α) (x : Cell) : List (Int × α) :=
  [(3, s.fieldX (gemCoord g x 0) (gemCoord g x 1)), (4, s.fieldY (gemCoord g x 0) (gemCoord g x 1))]

/-- A round that assigns the entries of a list. -/
def putRound (vals : Cell → List (Int × α)) (idx : Indexer) (d : List α) : Res (List α) :=
  (vals idx.index.dropLast).foldlM (fun d q => vset d (idx.linear + q.1) q.2) d

theorem gemRound_eq (s : Gem α) {g : Rectilinear α} (hg : g.Sized) (h3 : g.rng.dims.length ≤ 3) {ei ii fi : Indexer} {x : Cell} {l : Int}
    (hx : g.rng.dims.length < x.length) (he : ei.index = x ++ [l]) (hi : ii.index = x ++ [l]) (hf : fi.index = x ++ [l])
    {a b c a' b' c' : List α} (ha : putRound (s.fluidVals s.me s.Te s.ue g) ei a = .ok a')
    (hb : putRound (s.fluidVals s.mi s.Ti s.ui g) ii b = .ok b') (hc : putRound (s.fieldVals g) fi c = .ok c') :
    gemRound s g ei ii fi (a, b, c) = .ok (a', b', c') := by
  unfold putRound at ha hb hc
  rw [he] at ha
  rw [hi] at hb
  rw [hf] at hc
  simp only [List.dropLast_concat, Gem.fluidVals, Gem.fieldVals, List.foldlM_cons, List.foldlM_nil, add_zero] at ha hb hc
  obtain ⟨a1, ha1, ha⟩ := Res.bind_eq_ok.1 ha
  obtain ⟨a2, ha2, ha⟩ := Res.bind_eq_ok.1 ha
  obtain ⟨a3, ha3, ha⟩ := Res.bind_eq_ok.1 ha
  obtain ⟨b1, hb1, hb⟩ := Res.bind_eq_ok.1 hb
  obtain ⟨b2, hb2, hb⟩ := Res.bind_eq_ok.1 hb
  obtain ⟨b3, hb3, hb⟩ := Res.bind_eq_ok.1 hb
  obtain ⟨c1, hc1, hc⟩ := Res.bind_eq_ok.1 hc
  obtain ⟨c2, hc2, hc⟩ := Res.bind_eq_ok.1 hc
  simp only [Res.pure_eq, Res.ok.injEq] at ha hb hc
  subst ha hb hc
  unfold gemRound
  rw [he, xc_eq hg (by simp; omega) (by simpa using h3), Res.ok_bind]
  have k : ∀ i : Nat, i < 3 → coord (([some (Arith.lit 0), some (Arith.lit 0), some (Arith.lit 0)] : List (Option α)).mapIdx
      fun i o => if i < g.rng.dims.length then some (centre g (x ++ [l]) i) else o) (i : Int) = .ok (gemCoord g x i) := by
    intro i hi3
    unfold coord gemCoord
    rw [vget_nat (by simpa using hi3), Res.ok_bind]
    have e : i < g.rng.dims.length → centre g (x ++ [l]) i = centre g x i := fun hi => centre_append _ (by omega)
    match i, hi3 with
    | 0, _ => by_cases h0 : 0 < g.rng.dims.length <;> simp [h0, e]
    | 1, _ => by_cases h0 : 1 < g.rng.dims.length <;> simp [h0, e]
    | 2, _ => by_cases h0 : 2 < g.rng.dims.length <;> simp [h0, e]
  have k0 := k 0 (by omega)
  have k1 := k 1 (by omega)
  simp only [Nat.cast_zero, Nat.cast_one] at k0 k1
  rw [k0, Res.ok_bind, k1, Res.ok_bind]
  simp only []
  rw [ha1, Res.ok_bind, hb1, Res.ok_bind, ha2, Res.ok_bind, hb2, Res.ok_bind, ha3, Res.ok_bind, hb3, Res.ok_bind, hc1, Res.ok_bind,
    hc2, Res.ok_bind]
  rfl

/-- Values `gem` gives component `j` of a fluid and of the field in a cell. -/
def Gem.fluidAt (s : Gem α) (m T v : α) (g : Rectilinear α) (x : Cell) (j : Nat) : α :=
  let F := s.fluid m T v (gemCoord g x 0)
  if j = 0 then F.1 else if j = 3 then F.2.1 else if j = 4 then F.2.2 else Arith.lit 0
def Gem.fieldAt (s : Gem α) (g : Rectilinear α) (x : Cell) (j : Nat) : α :=
  if j = 3 then s.fieldX (gemCoord g x 0) (gemCoord g x 1) else
  if j = 4 then s.fieldY (gemCoord g x 0) (gemCoord g x 1) else Arith.lit 0

section
variable {g : Rectilinear α} {gh : Int} {M : Box} {p ne ni nf : Nat}

theorem gem_eq (s : Gem α) (hg : g.Sized) (hgm : g.rng.dims = M) (h3 : M.length ≤ 3) (hgh : 0 ≤ gh) (hM : Pos M) (hp : 1 ≤ p)
    (he5 : 5 ≤ ne) (hi5 : 5 ≤ ni) (hf5 : 5 ≤ nf) {ce ci cf : Chunk α} (le : ce.Layout gh M [(0, (p : Int)), (0, (ne : Int))])
    (li : ci.Layout gh M [(0, (p : Int)), (0, (ni : Int))]) (lf : cf.Layout gh M [(0, (p : Int)), (0, (nf : Int))]) :
    ∃ ce' ci' cf', gem s g ce ci cf = .ok (ce', ci', cf') ∧
      (ce.SameShape ce' ∧ ce'.Holds (grow gh M ++ [(0, (p : Int))]) ne (s.fluidAt s.me s.Te s.ue g)) ∧
      (ci.SameShape ci' ∧ ci'.Holds (grow gh M ++ [(0, (p : Int))]) ni (s.fluidAt s.mi s.Ti s.ui g)) ∧
      (cf.SameShape cf' ∧ cf'.Holds (grow gh M ++ [(0, (p : Int))]) nf (s.fieldAt g)) := by
  set B := grow gh M ++ [(0, (p : Int))] with hB
  have hwB : Range.Within B B := (within_iff _ _).2 ⟨rfl, fun j hj => ⟨le_refl _, le_refl _⟩⟩
  have hpB : Pos B := pos_snoc (pos_grow hgh hM) (by omega)
  have one : ∀ {c : Chunk α} {n : Nat} (vals : Cell → List (Int × α)) (f : Cell → Nat → α), 5 ≤ n → c.Layout gh M [(0, (p : Int)), (0, (n : Int))] →
      (∀ x, ((vals x).map Prod.fst).Nodup ∧ ∀ q ∈ vals x, 0 ≤ q.1 ∧ q.1 < 5) →
      (∀ (x : Cell) (j : Nat), ((j : Int), f x j) ∈ vals x ∨ ((j : Int) ∉ (vals x).map Prod.fst ∧ f x j = Arith.lit 0)) →
      ∃ d, (cells (B ++ [(0, 1)])).foldlM (fun d x => putRound vals (Indexer.onCell (B ++ [(0, 1)]) c.arr.rng.dims x) d) (c.arr.fill (Arith.lit 0)).data = .ok d ∧
        c.SameShape { c with arr := { c.arr.fill (Arith.lit 0) with data := d } } ∧
        ({ c with arr := { c.arr.fill (Arith.lit 0) with data := d } } : Chunk α).Holds B n f := by
    intro c n vals f hn hl hk hf
    obtain ⟨c', e1, e2, e3, -⟩ := filled_spec hl hwB hpB (l := 0) (by omega) (by omega) (round := putRound vals) vals f
      (by
        intro x _
        refine ⟨(hk x).1, fun q hq => ?_⟩
        have := (hk x).2 q hq
        omega)
      (by
        intro x hx d
        unfold putRound
        simp [Indexer.onCell])
      (by
        intro x _ j _
        have := hf x j
        simpa using this)
    unfold cellLoop IFace.indexer at e1
    have hne : c.arr.rng.dims ≠ [] := by rw [hl.dims]; simp
    obtain ⟨d, d1, d2⟩ := Res.bind_eq_ok.1 e1
    refine ⟨d, ?_, ?_⟩
    · rw [Indexer.forEach_make (by exact hne) ?_ ?_] at d1
      · simpa [IFace.fill] using d1
      · show Range.Within c.arr.rng.dims _
        rw [hl.dims, FV.layout_split, Range.setup_dims]
        unfold Range.Within at hwB ⊢
        refine List.rel_append hwB ?_
        simp; omega
      · rw [Range.setup_dims, pos_append]
        exact ⟨hpB, by intro d hd; simp at hd; subst hd; simp⟩
    · simp only [Res.pure_eq, Res.ok.injEq] at d2
      rw [d2]
      exact ⟨e2, e3⟩
  have fl : ∀ (m T v : α) (x : Cell), (((s.fluidVals m T v g) x).map Prod.fst).Nodup ∧ ∀ q ∈ s.fluidVals m T v g x, 0 ≤ q.1 ∧ q.1 < 5 := by
    intro m T v x
    simp [Gem.fluidVals]
  have fl' : ∀ (m T v : α) (x : Cell) (j : Nat), ((j : Int), s.fluidAt m T v g x j) ∈ s.fluidVals m T v g x ∨
      ((j : Int) ∉ (s.fluidVals m T v g x).map Prod.fst ∧ s.fluidAt m T v g x j = Arith.lit 0) := by
    intro m T v x j
    unfold Gem.fluidAt Gem.fluidVals
    simp only []
    by_cases h0 : j = 0
    · subst h0; left; simp
    by_cases h3 : j = 3
    · subst h3; left; exact .tail _ (.head _)
    by_cases h4 : j = 4
    · subst h4; left; exact .tail _ (.tail _ (.head _))
    right
    rw [if_neg h0, if_neg h3, if_neg h4]
    refine ⟨?_, rfl⟩
    simp; omega
  obtain ⟨de, e1, e2⟩ := one _ _ he5 le (fl s.me s.Te s.ue) (fl' s.me s.Te s.ue)
  obtain ⟨di, i1, i2⟩ := one _ _ hi5 li (fl s.mi s.Ti s.ui) (fl' s.mi s.Ti s.ui)
  obtain ⟨df, f1, f2⟩ := one (s.fieldVals g) (s.fieldAt g) hf5 lf (by intro x; simp [Gem.fieldVals]) (by
    intro x j
    unfold Gem.fieldAt Gem.fieldVals
    by_cases h3 : j = 3
    · subst h3; left; simp
    by_cases h4 : j = 4
    · subst h4; left; simp
    right
    rw [if_neg h3, if_neg h4]
    refine ⟨?_, rfl⟩
    simp; omega)
  refine ⟨_, _, _, ?_, e2, i2, f2⟩
  unfold gem
  simp only []
  have fe := le.sameShape (fill_sameShape ce (Arith.lit 0))
  have fi := li.sameShape (fill_sameShape ci (Arith.lit 0))
  have ff := lf.sameShape (fill_sameShape cf (Arith.lit 0))
  rw [compRange_all fe, Res.ok_bind, compRange_all fi, Res.ok_bind, compRange_all ff, Res.ok_bind]
  have hwi : ∀ {c : Chunk α} {k : Nat}, c.Layout gh M [(0, (p : Int)), (0, (k : Int))] → 5 ≤ k →
      Range.Within c.arr.rng.dims (B ++ [(0, 1)]) := by
    intro c k hl hk
    rw [hl.dims, FV.layout_split]
    unfold Range.Within at hwB ⊢
    refine List.rel_append hwB ?_
    simp; omega
  have hne : ∀ {c : Chunk α} {k : Nat}, c.Layout gh M [(0, (p : Int)), (0, (k : Int))] → c.arr.rng.dims ≠ [] := by
    intro c k hl; rw [hl.dims]; simp
  have hpos : Pos (B ++ [(0, 1)]) := by
    rw [pos_append]
    exact ⟨hpB, by intro d hd; simp at hd; subst hd; simp⟩
  unfold IFace.indexer
  rw [forThree_make (hne fe) (hne fi) (hne ff) (by rw [Range.setup_dims]; exact hwi fe he5) (by rw [Range.setup_dims]; exact hwi fi hi5)
    (by rw [Range.setup_dims]; exact hwi ff hf5) (by rw [Range.setup_dims]; exact hpos)]
  simp only [Range.setup_dims]
  rw [foldlM3 (r1 := fun d x => putRound (s.fluidVals s.me s.Te s.ue g) (Indexer.onCell (B ++ [(0, 1)]) ce.arr.rng.dims x) d)
    (r2 := fun d x => putRound (s.fluidVals s.mi s.Ti s.ui g) (Indexer.onCell (B ++ [(0, 1)]) ci.arr.rng.dims x) d)
    (r3 := fun d x => putRound (s.fieldVals g) (Indexer.onCell (B ++ [(0, 1)]) cf.arr.rng.dims x) d) ?_ e1 i1 f1, Res.ok_bind]
  · rfl
  · intro y hy a b c a' b' c' ha hb hc
    rw [show B ++ [((0 : Int), (1 : Int))] = B ++ [((0 : Int), (0 : Int) + 1)] from rfl, Source.cells_snoc_one, List.mem_map] at hy
    obtain ⟨x, hx, rfl⟩ := hy
    rw [mem_cells] at hx
    have hlen := hx.length_eq
    refine gemRound_eq s hg (by rw [hgm]; exact h3) (x := x) (l := 0) ?_ rfl rfl rfl ha hb hc
    rw [hgm, hlen, hB]; simp [grow]

end

end Init

namespace Solve
open SM
variable {α : Type} [Arith α] {S : VarId → Prop} {m : Mgr α}

/-- A solver with three output variables that sets their chunks. -/
theorem threeOutputs {oe oi of : VarId} (h : m.Good S) (hL : m.Laid) (he : S oe) (hi : S oi) (hf : S of)
    (hei : oe ≠ oi) (hef : oe ≠ of) (hif : oi ≠ of) {body : Nat → Nat → Nat → Indexer → Mgr α → Res (Mgr α)}
    (P : Chunk α → Chunk α → Chunk α → Prop)
    (hb : ∀ (m1 : Mgr α) (ae ai af : Nat) (ce ci cf : Chunk α), m1.Good S → m1.grid = m.grid →
      m1.addr oe = some ae → m1.addr oi = some ai → m1.addr of = some af →
      m1.contents oe = some ce → m1.contents oi = some ci → m1.contents of = some cf →
      ce.Layout 2 m.grid.rng.dims [(0, oe.basis.points), (0, (oe.comps.length : Int))] →
      ci.Layout 2 m.grid.rng.dims [(0, oi.basis.points), (0, (oi.comps.length : Int))] →
      cf.Layout 2 m.grid.rng.dims [(0, of.basis.points), (0, (of.comps.length : Int))] →
      ∃ ce' ci' cf', (∀ idx : Indexer, idx.linear = 0 → body ae ai af idx m1 = .ok (((m1.store ae ce').store ai ci').store af cf')) ∧
        ce.SameShape ce' ∧ ci.SameShape ci' ∧ cf.SameShape cf' ∧ P ce' ci' cf') :
    ∃ m', (do
        let ae ← outputVar oe
        let ai ← outputVar oi
        let af ← outputVar of
        forChunks ae (body ae ai af) : SM (Mgr α) Unit) m = .ok () m' ∧ m'.Good S ∧ m'.Laid ∧ m.Extends m' ∧
      (∃ ce ci cf, m'.contents oe = some ce ∧ m'.contents oi = some ci ∧ m'.contents of = some cf ∧ P ce ci cf) ∧
      ∀ id, id ≠ oe → id ≠ oi → id ≠ of → m'.contents id = m.contents id := by
  obtain ⟨a1, m1, e1, g1, l1, x1, b1, c1⟩ := outputVar_requested h hL he
  obtain ⟨a2, m2, e2, g2, l2, x2, b2, c2⟩ := outputVar_requested g1 l1 hi
  obtain ⟨a3, m3, e3, g3, l3, x3, b3, c3⟩ := outputVar_requested g2 l2 hf
  have d1 := x3.addr _ _ (x2.addr _ _ b1)
  have d2 := x3.addr _ _ b2
  have x13 := x1.trans (x2.trans x3)
  have hst : ∀ {id a}, m3.addr id = some a → ∃ c, m3.contents id = some c ∧
      c.Layout 2 m.grid.rng.dims [(0, id.basis.points), (0, (id.comps.length : Int))] := by
    intro id a hid
    obtain ⟨v, c, _, _, _, _, _, _, _, h8⟩ := g3.stored' hid
    refine ⟨c, h8, ?_⟩
    have := l3 _ _ h8
    rw [x13.grid] at this
    exact this
  obtain ⟨ce, k1, y1⟩ := hst d1
  obtain ⟨ci, k2, y2⟩ := hst d2
  obtain ⟨cf, k3, y3⟩ := hst b3
  obtain ⟨ce', ci', cf', r, s1, s2, s3, hP⟩ := hb m3 a1 a2 a3 ce ci cf g3 x13.grid d1 d2 b3 k1 k2 k3 y1 y2 y3
  have g4 := g3.store a1 ce'
  have c4 := g3.store_contents d1 (c := ce')
  have l4 := Mgr.Laid.store g3 l3 d1 k1 s1
  have g5 := g4.store a2 ci'
  have d2' : (m3.store a1 ce').addr oi = some a2 := (Mgr.store_extends m3 a1 ce').addr _ _ d2
  have k2' : (m3.store a1 ce').contents oi = some ci := by rw [c4, Function.update_of_ne hei.symm]; exact k2
  have c5 := g4.store_contents d2' (c := ci')
  have l5 := Mgr.Laid.store g4 l4 d2' k2' s2
  have d3' : ((m3.store a1 ce').store a2 ci').addr of = some a3 :=
    (Mgr.store_extends _ a2 ci').addr _ _ ((Mgr.store_extends m3 a1 ce').addr _ _ b3)
  have k3' : ((m3.store a1 ce').store a2 ci').contents of = some cf := by
    rw [c5, Function.update_of_ne hif.symm, c4, Function.update_of_ne hef.symm]; exact k3
  have g6 := g5.store a3 cf'
  have c6 := g5.store_contents d3' (c := cf')
  have l6 := Mgr.Laid.store g5 l5 d3' k3' s3
  refine ⟨_, ?_, g6, l6, x13.trans (((Mgr.store_extends _ _ _).trans (Mgr.store_extends _ _ _)).trans (Mgr.store_extends _ _ _)),
    ⟨ce', ci', cf', ?_, ?_, ?_, hP⟩, ?_⟩
  · rw [SM.bind_ok e1, SM.bind_ok e2, SM.bind_ok e3]
    apply forChunks_spec g3 d1
    exact r
  · rw [c6, Function.update_of_ne hef, c5, Function.update_of_ne hei, c4, Function.update_self]
  · rw [c6, Function.update_of_ne hif, c5, Function.update_self]
  · rw [c6, Function.update_self]
  · intro id h1 h2 h3
    have other : ∀ {m m' : Mgr α} {o : VarId}, id ≠ o → m'.contents = m.requested (Arith.lit 0) [o] → m'.contents id = m.contents id := by
      intro m m' o ho hc
      rw [hc]
      unfold Mgr.requested
      cases m.contents id with
      | some c => rfl
      | none => simp [ho]
    rw [c6, Function.update_of_ne h3, c5, Function.update_of_ne h2, c4, Function.update_of_ne h1, other h3 c3, other h2 c2, other h1 c1]

end Solve
end QK
