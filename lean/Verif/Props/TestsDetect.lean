import Verif.Props.Tests
/-
C109: what the assertions of the repository's tests detect.
-/
namespace QK.Props
open QK Spec Tests

theorem check_iff {b : Bool} {s : String} : check b s = .ok () ↔ b = true := by
  unfold check; split <;> simp [*]

theorem check_then {b : Bool} {s : String} {k : Unit → Res Unit} : (check b s >>= k) = .ok () ↔ b = true ∧ k () = .ok () := by
  unfold check; split <;> simp [*]

theorem every_eq {n : Nat} {body : Nat → Res Bool} {b : Nat → Bool} (h : ∀ i < n, body i = .ok (b i)) : every n body = .ok ((List.range n).all b) := by
  unfold every
  have key : ∀ (l : List Nat) (t : Bool), (∀ i ∈ l, i < n) → l.foldlM (fun t i => if t = true then body i else Res.ok false) t = .ok (t && l.all b) := by
    intro l
    induction l with
    | nil => intro t _; simp
    | cons a l ih =>
      intro t hl
      have ha := h a (hl a List.mem_cons_self)
      rw [List.foldlM_cons]
      cases t with
      | true => rw [if_pos rfl, ha, Res.ok_bind, ih _ fun i hi => hl i (List.mem_cons_of_mem _ hi)]; simp
      | false => rw [if_neg (by simp), Res.ok_bind, ih _ fun i hi => hl i (List.mem_cons_of_mem _ hi)]; simp
  simpa using key _ true fun i hi => List.mem_range.1 hi

/-- A loop that compares the elements of two sequences passes iff they are equal. -/
theorem every_same {n : Nat} {a b : List Int} (ha : a.length = n) (hb : b.length = n) : (List.range n).all (fun i => a.getD i 0 == b.getD i 0) = true ↔ a = b := by
  rw [List.all_eq_true]
  simp only [List.mem_range, beq_iff_eq]
  constructor
  · intro h
    apply List.ext_getElem (by omega)
    intro i h1 h2
    have := h i (by omega)
    simpa [h1, h2] using this
  · rintro rfl i _; rfl

/-- **C109** The comparison of a range with arrays, used by the tests of the constructors, detects every difference: it passes iff all lower bounds, upper bounds, lengths and strides are those in the arrays. -/
theorem C109_compare {r : Range} {n : Nat} (hn : r.dims.length = n) (hs : r.stride.length = n) {lower upper length stride : List Int} (h1 : lower.length = n) (h2 : upper.length = n)
    (h3 : length.length = n) (h4 : stride.length = n) :
    compareWith r n lower upper length stride = .ok () ↔
      r.dims.map Prod.fst = lower ∧ r.dims.map Prod.snd = upper ∧ (r.dims.map fun p => p.2 - p.1) = length ∧ r.stride = stride := by
  have get : ∀ {l : List Int} (_ : l.length = n) (i : Nat), i < n → vget l (i : Int) = .ok (l.getD i 0) := by
    intro l hl i hi
    rw [vget_nat (by omega)]
    simp [hl, hi]
  unfold compareWith
  rw [every_eq (b := fun i => (r.dims.map Prod.fst).getD i 0 == lower.getD i 0), Res.ok_bind, every_eq (b := fun i => (r.dims.map Prod.snd).getD i 0 == upper.getD i 0), Res.ok_bind,
    every_eq (b := fun i => (r.dims.map fun p => p.2 - p.1).getD i 0 == length.getD i 0), Res.ok_bind, every_eq (b := fun i => r.stride.getD i 0 == stride.getD i 0), Res.ok_bind,
    check_then, check_then, check_then, check_iff, every_same (by simpa using hn) h1, every_same (by simpa using hn) h2, every_same (by simpa using hn) h3, every_same hs h4]
  · intro i hi
    rw [get hs i hi, Res.ok_bind, get h4 i hi, Res.ok_bind]; rfl
  · intro i hi
    rw [Range.length_ok (by omega), Res.ok_bind, get h3 i hi, Res.ok_bind]
    simp [hn, hi]
  · intro i hi
    rw [Range.upper_ok (by omega), Res.ok_bind, get h2 i hi, Res.ok_bind]
    simp [hn, hi]
  · intro i hi
    rw [Range.lower_ok (by omega), Res.ok_bind, get h1 i hi, Res.ok_bind]
    simp [hn, hi]

/-- **C109** The assertions about a shifted or changed range pass iff it differs from the original, its bounds in dimension 1 are the expected ones and the first stride and the volume are unchanged. -/
theorem C109_moved {r base : Range} (hr : 2 ≤ r.dims.length) (hs : r.stride ≠ []) (hb : base.stride ≠ []) {lo hi : Int} :
    moved r base lo hi = .ok () ↔ r.dims ≠ base.dims ∧ r.dims[1]? = some (lo, hi) ∧ r.stride.head? = base.stride.head? ∧ r.volume = base.volume := by
  obtain ⟨s, ss, e1⟩ := List.exists_cons_of_ne_nil hs
  obtain ⟨t, ts, e2⟩ := List.exists_cons_of_ne_nil hb
  have l1 : r.lower 1 = .ok (r.dims[1]).1 := Range.lower_ok hr
  have u1 : r.upper 1 = .ok (r.dims[1]).2 := Range.upper_ok hr
  unfold moved
  rw [check_then, l1, u1, Res.ok_bind, check_then, Res.ok_bind, check_then, e1, e2, show vget (s :: ss) 0 = .ok s from rfl, show vget (t :: ts) 0 = .ok t from rfl, Res.ok_bind, Res.ok_bind, check_then, check_iff]
  have ne : r.neqv base = true ↔ r.dims ≠ base.dims := by
    unfold Range.neqv
    rw [Bool.not_eq_true', Bool.eq_false_iff, ne_eq, Range.eqv_iff]
  rw [ne, List.getElem?_eq_getElem (by omega)]
  simp only [beq_iff_eq, Option.some.injEq, List.head?_cons, Prod.ext_iff]
  tauto

/-- **C109** The two assertions after colouring a range (`fill` on a sub-range, `pull`) pass iff every cell of the container has the right value: `v` in the range, 0 elsewhere. -/
theorem C109_coloured {ii : IFace Int} (hwf : ii.WF) {d0 d1 : Int × Int} (hd : ii.rng.dims = [d0, d1]) (hp : Pos ii.rng.dims) {fill : Range} {e0 e1 : Int × Int} (hf : fill.dims = [e0, e1]) {v : Int} :
    checkColoured ii fill v = .ok () ↔ ∀ c, InBox ii.rng.dims c → ii.val c = some (if InBox fill.dims c then v else 0) := by
  refine ⟨fun h => ?_, coloured_ok hwf hd hp hf⟩
  have hne : ii.rng.dims ≠ [] := by rw [hd]; simp
  have val : ∀ c, InBox ii.rng.dims c → ∃ w, ii.val c = some w := fun c hc => IFace.val_isSome hwf hne hc
  have in_iff : ∀ x y : Int, InBox fill.dims [x, y] ↔ (e0.1 ≤ x ∧ x < e0.2) ∧ (e1.1 ≤ y ∧ y < e1.2) := by
    intro x y; rw [hf]; simp [InBox]
  unfold checkColoured coloured IFace.indexer at h
  rw [Indexer.forEach_make hne (Range.Within.refl _) hp] at h
  generalize hb : (fun (t : Bool × Bool) (c : Cell) => _ : Bool × Bool → Cell → Res (Bool × Bool)) = body at h
  have step : ∀ c, InBox ii.rng.dims c → ∀ t : Bool × Bool, ∀ w, ii.val c = some w →
      body t c = .ok (if InBox fill.dims c then (t.1, t.2 && w == v) else (t.1 && w == 0, t.2)) := by
    intro c hc t w hw
    have hg := IFace.get_onCell hwf hne hc ii.rng.dims hw
    obtain ⟨x, y, rfl⟩ : ∃ x y, c = [x, y] := by
      rw [hd] at hc
      have := List.Forall₂.length_eq hc
      match c, this with
      | [x, y], _ => exact ⟨x, y, rfl⟩
    rw [← hb]
    beta_reduce
    rw [hg]
    rw [show vget (Indexer.onCell ii.rng.dims ii.rng.dims [x, y]).index 0 = .ok x from rfl, show vget (Indexer.onCell ii.rng.dims ii.rng.dims [x, y]).index 1 = .ok y from rfl]
    rw [show fill.lower 0 = .ok e0.1 by unfold Range.lower; rw [hf]; rfl, show fill.upper 0 = .ok e0.2 by unfold Range.upper; rw [hf]; rfl,
      show fill.lower 1 = .ok e1.1 by unfold Range.lower; rw [hf]; rfl, show fill.upper 1 = .ok e1.2 by unfold Range.upper; rw [hf]; rfl]
    simp only [Res.ok_bind]
    obtain ⟨t1, t2⟩ := t
    by_cases hin : (e0.1 ≤ x ∧ x < e0.2) ∧ (e1.1 ≤ y ∧ y < e1.2)
    · rw [if_pos hin, if_pos ((in_iff x y).2 hin)]; cases t2 <;> simp
    · rw [if_neg hin, if_neg (fun k => hin ((in_iff x y).1 k))]; cases t1 <;> simp
  have fold : ∀ (L : List Cell), (∀ c ∈ L, InBox ii.rng.dims c) → ∀ t : Bool × Bool, ∃ t' : Bool × Bool, L.foldlM body t = .ok t' ∧
      (t' = (true, true) → t = (true, true) ∧ ∀ c ∈ L, ii.val c = some (if InBox fill.dims c then v else 0)) := by
    intro L
    induction L with
    | nil => intro _ t; exact ⟨t, rfl, fun e => ⟨e, by simp⟩⟩
    | cons c L ih =>
      intro hL t
      obtain ⟨w, hw⟩ := val c (hL c List.mem_cons_self)
      obtain ⟨t', e, k⟩ := ih (fun x hx => hL x (List.mem_cons_of_mem _ hx)) (if InBox fill.dims c then (t.1, t.2 && w == v) else (t.1 && w == 0, t.2))
      refine ⟨t', by rw [List.foldlM_cons, step c (hL c List.mem_cons_self) t w hw, Res.ok_bind, e], fun ht => ?_⟩
      obtain ⟨k1, k2⟩ := k ht
      obtain ⟨t1, t2⟩ := t
      have both : (t1, t2) = (true, true) ∧ w = if InBox fill.dims c then v else 0 := by
        split at k1 <;> simp_all
      exact ⟨both.1, fun x hx => by
        rcases List.mem_cons.1 hx with rfl | hx
        · rw [hw, both.2]
        · exact k2 x hx⟩
  obtain ⟨t', e, k⟩ := fold _ (fun c hc => mem_cells.1 hc) (true, true)
  rw [e, Res.ok_bind, check_then, check_iff] at h
  exact fun c hc => (k (Prod.ext h.1 h.2)).2 c (mem_cells.2 hc)

/-- **C109** The assertions about a new variable pass iff it has the name, the components, exactly one chunk, and that chunk has the number of values, of points and of components it should have. -/
theorem C109_variable_detects {var : Var Int} (hwf : var.chunks.WF) (hne : var.chunks.rng.dims ≠ []) (hp : Pos var.chunks.rng.dims) {n : Nat}
    (hn : ∀ c k, InBox var.chunks.rng.dims c → var.chunks.val c = some k → k.arr.rng.dims.length = n + 2) {name : String} {comps : List String} {basis : Basis} {ext : Range} :
    checkVariable var name comps basis ext n = .ok () ↔ var.name = name ∧ var.comps = comps ∧ (cells var.chunks.rng.dims).length = 1 ∧
      ∀ c k, InBox var.chunks.rng.dims c → var.chunks.val c = some k → k.arr.rng.volume = ext.volume * comps.length * basis.points ∧
        k.arr.rng.dims[n]?.map (fun d => d.2 - d.1) = some basis.points ∧ k.arr.rng.dims[n + 1]?.map (fun d => d.2 - d.1) = some (comps.length : Int) := by
  unfold checkVariable IFace.indexer
  rw [check_then, check_then, Indexer.forEach_make hne (Range.Within.refl _) hp]
  generalize hb : (fun (t : Int) (c : Cell) => _ : Int → Cell → Res Int) = body
  have step : ∀ c, InBox var.chunks.rng.dims c → ∀ (t : Int) k, var.chunks.val c = some k →
      ((k.arr.rng.volume = ext.volume * comps.length * basis.points ∧ k.arr.rng.dims[n]?.map (fun d => d.2 - d.1) = some basis.points ∧
        k.arr.rng.dims[n + 1]?.map (fun d => d.2 - d.1) = some (comps.length : Int)) ∧ body t c = .ok (t + 1)) ∨
      (¬ (k.arr.rng.volume = ext.volume * comps.length * basis.points ∧ k.arr.rng.dims[n]?.map (fun d => d.2 - d.1) = some basis.points ∧
        k.arr.rng.dims[n + 1]?.map (fun d => d.2 - d.1) = some (comps.length : Int)) ∧ ∀ u, body t c ≠ .ok u) := by
    intro c hc t k hk
    have hg := IFace.get_onCell hwf hne hc var.chunks.rng.dims hk
    have hl := hn c k hc hk
    rw [← hb]
    beta_reduce
    rw [hg]
    simp only [Res.ok_bind]
    rw [Range.length_ok (r := k.arr.rng) (d := n) (by omega), show ((n : Int) + 1) = ((n + 1 : Nat) : Int) by simp, Range.length_ok (r := k.arr.rng) (d := n + 1) (by omega)]
    simp only [Res.ok_bind, check]
    rw [List.getElem?_eq_getElem (by omega), List.getElem?_eq_getElem (by omega), Option.map_some, Option.map_some, Option.some.injEq, Option.some.injEq]
    by_cases h1 : k.arr.rng.volume = ext.volume * comps.length * basis.points
    · by_cases h2 : (k.arr.rng.dims[n]'(by omega)).2 - (k.arr.rng.dims[n]'(by omega)).1 = basis.points
      · by_cases h3 : (k.arr.rng.dims[n + 1]'(by omega)).2 - (k.arr.rng.dims[n + 1]'(by omega)).1 = (comps.length : Int)
        · left; simp [h1, h2, h3]
        · right; simp [h1, h2, h3]
      · right; simp [h1, h2]
    · right; simp [h1]
  have fold : ∀ (L : List Cell), (∀ c ∈ L, InBox var.chunks.rng.dims c) → ∀ t u : Int, (L.foldlM body t = .ok u ↔ u = t + L.length ∧ ∀ c ∈ L, ∀ k, var.chunks.val c = some k →
      k.arr.rng.volume = ext.volume * comps.length * basis.points ∧ k.arr.rng.dims[n]?.map (fun d => d.2 - d.1) = some basis.points ∧
        k.arr.rng.dims[n + 1]?.map (fun d => d.2 - d.1) = some (comps.length : Int)) := by
    intro L
    induction L with
    | nil => intro _ t u; simp [eq_comm]
    | cons c L ih =>
      intro hL t u
      have hc := hL c List.mem_cons_self
      obtain ⟨k, hk⟩ := IFace.val_isSome hwf hne hc
      rw [List.foldlM_cons]
      rcases step c hc t k hk with ⟨h1, h2⟩ | ⟨h1, h2⟩
      · rw [h2, Res.ok_bind, ih fun x hx => hL x (List.mem_cons_of_mem _ hx)]
        simp only [List.length_cons, List.mem_cons, forall_eq_or_imp, Nat.cast_add, Nat.cast_one]
        refine and_congr (by constructor <;> intro h <;> omega) ⟨fun h => ⟨fun k' hk' => ?_, h⟩, fun h => h.2⟩
        rw [hk] at hk'; cases hk'; exact h1
      · refine iff_of_false (fun h => ?_) (fun h => h1 (h.2 c List.mem_cons_self k hk))
        cases e : body t c with
        | ok w => exact h2 w e
        | throw | ub | diverge => rw [e] at h; cases h
  have all := fold _ (fun c hc => mem_cells.1 hc) 0
  rw [beq_iff_eq, beq_iff_eq]
  refine and_congr Iff.rfl (and_congr Iff.rfl ?_)
  constructor
  · intro h
    cases e : (cells var.chunks.rng.dims).foldlM body 0 with
    | ok w =>
      rw [e, Res.ok_bind, check_iff, beq_iff_eq] at h
      obtain ⟨a, b⟩ := (all w).1 e
      exact ⟨by omega, fun c k hc hk => b c (mem_cells.2 hc) k hk⟩
    | throw | ub | diverge => rw [e] at h; cases h
  · rintro ⟨a, b⟩
    rw [(all 1).2 ⟨by omega, fun c hc k hk => b c k (mem_cells.1 hc) hk⟩, Res.ok_bind, check_iff]
    rfl

-- C109: a range with a wrong stride is detected
example : compareWith ⟨[(0, 2), (0, 3)], [2, 1]⟩ 2 [0, 0] [2, 3] [2, 3] [3, 1] ≠ .ok () := by
  rw [ne_eq, C109_compare (n := 2) rfl rfl rfl rfl rfl rfl]; simp

-- C109: a range shifted too far is detected
example : moved (Range.setup [(0, 4), (6, 10)]) (Range.setup [(0, 4), (0, 4)]) 5 9 ≠ .ok () := by
  rw [ne_eq, C109_moved (by decide) (by decide) (by decide)]; decide

-- C109: a variable in two chunks is detected
example (k : Chunk Int) (hk : k.arr.rng.dims.length = 3) :
    checkVariable ⟨"v", ["A"], .volumeAverage, Range.setup [], Range.setup [(0, 2)], ⟨Range.setup [(0, 2)], [k, k]⟩⟩ "v" ["A"] .volumeAverage (Range.setup [(0, 1)]) 1 ≠ .ok () := by
  intro h
  rw [C109_variable_detects ⟨Range.setup_wf _, by rfl⟩ (by simp) (by intro d hd; simp at hd; subst hd; decide) (n := 1)] at h
  · exact absurd h.2.2.1 (by simp [cells])
  · intro c k' hc hv
    have : k' ∈ [k, k] := List.mem_of_getElem? hv
    simp at this; rw [this, hk]

end QK.Props
