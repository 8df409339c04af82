import Verif.Model.Tests
import Verif.Props.Container
import Verif.Props.Variable
/-
C109: the repository's tests, with any numbers in the place of those written in them.
-/
namespace QK.Props
open QK Spec Tests

/-- **C109** A group of tests succeeds iff each of its tests returns true (none throws or has undefined behaviour). -/
theorem C109_group (tests : List (Res Bool)) : group tests = .ok true ↔ ∀ t ∈ tests, t = .ok true := by
  unfold group
  have key : ∀ (l : List (Res Bool)) (b : Bool), l.foldlM call b = .ok true ↔ b = true ∧ ∀ t ∈ l, t = .ok true := by
    intro l
    induction l with
    | nil => intro b; simp
    | cons t l ih =>
      intro b
      rw [List.foldlM_cons]
      cases t with
      | ok s => simp only [call, Res.ok_bind, ih]; simp; tauto
      | throw m => simp only [call, Res.ok_bind, ih]; simp
      | ub w => simp [call]
      | diverge => simp [call]
  simpa using key tests true

theorem every_true {n : Nat} {body : Nat → Res Bool} (h : ∀ i < n, body i = .ok true) : every n body = .ok true := by
  unfold every
  have : ∀ l : List Nat, (∀ i ∈ l, i < n) → l.foldlM (fun t i => if t = true then body i else Res.ok false) true = .ok true := by
    intro l
    induction l with
    | nil => intro _; rfl
    | cons a l ih =>
      intro hl
      rw [List.foldlM_cons, if_pos rfl, h a (hl a List.mem_cons_self), Res.ok_bind]
      exact ih fun i hi => hl i (List.mem_cons_of_mem _ hi)
  exact this _ fun i hi => List.mem_range.1 hi

/-- The strides the test computes: products of the later lengths. -/
theorem strides_ok {length : List Int} (hn : length ≠ []) : ∃ s, strides length.length length = .ok s ∧ s.length = length.length ∧
    ∀ j < length.length, s[j]? = some (length.drop (j + 1)).prod := by
  have h0 : 0 < length.length := List.length_pos_iff.2 hn
  have key : ∀ (i : Nat) (s : List Int), i < length.length → s.length = length.length → (∀ j, i ≤ j → j < length.length → s[j]? = some (length.drop (j + 1)).prod) →
      ∃ s', strideDown length i s = .ok s' ∧ s'.length = length.length ∧ ∀ j < length.length, s'[j]? = some (length.drop (j + 1)).prod := by
    intro i
    induction i with
    | zero => intro s _ hs h; exact ⟨s, rfl, hs, fun j hj => h j (Nat.zero_le _) hj⟩
    | succ i ih =>
      intro s hi hs h
      unfold strideDown
      have e1 : vget s ((i : Int) + 1) = .ok (length.drop (i + 2)).prod := by
        have := vget_ok (h (i + 1) le_rfl hi)
        simpa using this
      have e2 : vget length ((i : Int) + 1) = .ok length[i + 1] := by
        have := vget_ok (List.getElem?_eq_getElem hi)
        simpa using this
      rw [e1, Res.ok_bind, e2, Res.ok_bind, vset_nat (by omega), Res.ok_bind]
      refine ih _ (by omega) (by simpa using hs) ?_
      intro j h1 h2
      rcases Nat.lt_or_ge i j with g | g
      · rw [List.getElem?_set_ne (by omega)]; exact h j g h2
      · have : j = i := by omega
        subst this
        rw [List.getElem?_set_self (by omega), ← List.cons_getElem_drop_succ (h := hi), List.prod_cons, mul_comm]
  unfold strides
  have : ((length.length : Int) - 1) = ((length.length - 1 : Nat) : Int) := by omega
  rw [this, vset_nat (by simpa using by omega), Res.ok_bind]
  refine key _ _ (by omega) (by simp) ?_
  intro j h1 h2
  have : j = length.length - 1 := by omega
  subst this
  rw [List.getElem?_set_self (by simpa using by omega), List.drop_of_length_le (by omega)]; rfl

theorem compare_ok {d : Box} {lower upper length stride : List Int} (h1 : lower = d.map Prod.fst) (h2 : upper = d.map Prod.snd) (h3 : length = d.map fun p => p.2 - p.1)
    (h4 : ∀ j < d.length, stride[j]? = some (length.drop (j + 1)).prod) : compareWith (Range.setup d) d.length lower upper length stride = .ok () := by
  unfold compareWith
  rw [every_true, Res.ok_bind, every_true, Res.ok_bind, every_true, Res.ok_bind, every_true, Res.ok_bind]
  · rfl
  · intro i hi
    rw [Range.setup_stride, vget_ok (Range.strideLoop_getElem? d i hi), Res.ok_bind, vget_ok (h4 i hi), h3, ← List.map_drop]
    simp [boxVolume, lengths]
  · intro i hi
    rw [Range.length_ok (by simpa using hi), Res.ok_bind, h3, vget_ok (a := d[i].2 - d[i].1) (by simp [hi])]
    simp
  · intro i hi
    rw [Range.upper_ok (by simpa using hi), Res.ok_bind, h2, vget_ok (a := d[i].2) (by simp [hi])]
    simp
  · intro i hi
    rw [Range.lower_ok (by simpa using hi), Res.ok_bind, h1, vget_ok (a := d[i].1) (by simp [hi])]
    simp

theorem ofBounds_ok {lower upper : List Int} (h : lower.length = upper.length) : Range.ofBounds lower.length lower upper = .ok (Range.setup (lower.zip upper)) := by
  unfold Range.ofBounds Range.readArrays
  rw [if_pos ⟨le_rfl, h.le⟩, List.take_length, h, List.take_length]; rfl

theorem ofLengths_ok (dims : List Int) : Range.ofLengths dims.length dims = .ok (Range.setup (dims.map fun x => (0, x))) := by
  unfold Range.ofLengths
  have := ofBounds_ok (lower := List.replicate dims.length 0) (upper := dims) (by simp)
  rw [List.length_replicate] at this
  rw [this]
  congr 2
  apply List.ext_getElem <;> simp

/-- **C109** The tests of the constructors pass for all lengths and bounds (at least one dimension), iff the volume they compare with is the product of the lengths. -/
theorem C109_range_constructors {dims lower upper : List Int} {volume : Int} (h0 : dims ≠ []) (h1 : lower ≠ []) (h2 : lower.length = upper.length) :
    rangeConstructors dims volume lower upper = .ok true ↔ volume = dims.prod := by
  unfold rangeConstructors
  rw [show check (Range.empty.volume == 0) "Empty Constructor" = .ok () from rfl, Res.ok_bind]
  dsimp only
  obtain ⟨s, e1, -, e2⟩ := strides_ok h0
  rw [ofLengths_ok, Res.ok_bind, e1, Res.ok_bind]
  have n1 : (Range.setup (dims.map fun x => ((0 : Int), x))).numDims = dims.length := by simp [Range.numDims, Range.setup]
  have c1 := compare_ok (d := dims.map fun x => ((0 : Int), x)) (lower := List.replicate dims.length 0) (upper := dims) (length := dims) (stride := s)
    (by rw [List.map_map, List.map_eq_replicate_iff.2]; intro x _; rfl) (by simp [Function.comp_def]) (by simp [Function.comp_def]) (by simpa using e2)
  rw [List.length_map] at c1
  rw [show check ((Range.setup (dims.map fun x => ((0 : Int), x))).numDims == dims.length) "Block constructor num_dims test" = .ok () by rw [n1]; simp [check], Res.ok_bind, c1, Res.ok_bind]
  have hz : (List.zipWith (· - ·) upper lower).length = lower.length := by simp [h2]
  have hz0 : List.zipWith (· - ·) upper lower ≠ [] := by
    intro h; rw [h] at hz; exact h1 (List.length_eq_zero_iff.1 hz.symm)
  obtain ⟨s', f1, -, f2⟩ := strides_ok hz0
  rw [hz] at f1 f2
  have hl : (lower.zip upper).length = lower.length := by simp [h2]
  have c2 := compare_ok (d := lower.zip upper) (lower := lower) (upper := upper) (length := List.zipWith (· - ·) upper lower) (stride := s')
    (by rw [List.map_fst_zip h2.le]) (by rw [List.map_snd_zip h2.ge]) (by apply List.ext_getElem <;> simp [h2]) (by rw [hl]; exact f2)
  rw [hl] at c2
  have hv : (Range.setup (dims.map fun x => ((0 : Int), x))).volume = dims.prod := by
    rw [Range.volume_setup (by simpa using h0)]
    simp [boxVolume, lengths, Function.comp_def]
  rw [hv, f1]
  constructor
  · intro h
    by_contra hne
    rw [check, if_neg (by simpa using fun e => hne e.symm)] at h
    cases h
  · intro h
    rw [check, if_pos (by simpa using h.symm), Res.ok_bind, Res.ok_bind, ofBounds_ok h2, Res.ok_bind, check, if_pos (by simp [Range.numDims, Range.setup, h2]), Res.ok_bind, c2,
      Range.copy_setup, Res.ok_bind, c2]
    rfl

/-- **C109** The tests of `extrude` pass for all numbers. -/
theorem C109_range_extrusion (a b c lo hi : Int) : rangeExtrusion a b c lo hi = .ok true := by
  unfold rangeExtrusion
  rw [show Range.ofLengths 3 [a, b, c] = .ok (Range.setup [(0, a), (0, b), (0, c)]) from rfl, Res.ok_bind]
  dsimp only
  rw [show (((Range.empty.extrude 0 a).extrude 0 b).extrude 0 c) = Range.setup [(0, a), (0, b), (0, c)] from rfl,
    show (Range.setup [(0, a), (0, b), (0, c)]).copy.extrude lo hi = Range.setup [(0, a), (0, b), (0, c), (lo, hi)] from rfl,
    check, if_pos (Range.eqv_iff.2 rfl), Res.ok_bind, check, if_pos]
  · rfl
  · rw [Range.volume_setup (by simp), Range.volume_setup (by simp)]
    simp [boxVolume, lengths]; ring

/-- **C109** The tests of `resize` pass for all bounds (at least one dimension), iff the volume they compare with is the product of the lengths. -/
theorem C109_range_resize {base lower upper lower' upper' : List Int} {volume : Int} (h1 : lower ≠ []) (h2 : lower.length = upper.length) (h3 : lower'.length = upper'.length) :
    rangeResize base lower upper volume lower' upper' = .ok true ↔ volume = (List.zipWith (· - ·) upper lower).prod := by
  unfold rangeResize
  dsimp only
  have hl : (lower.zip upper).length = lower.length := by simp [h2]
  rw [ofLengths_ok, Res.ok_bind, ofBounds_ok h2, Res.ok_bind, check, if_pos (by simp [Range.numDims, Range.setup, h2]), Res.ok_bind, every_true, Res.ok_bind, every_true, Res.ok_bind]
  · have hv : (Range.setup (lower.zip upper)).volume = (List.zipWith (· - ·) upper lower).prod := by
      rw [Range.volume_setup (by intro h; rw [h] at hl; exact h1 (List.length_eq_zero_iff.1 hl.symm))]
      unfold boxVolume lengths
      congr 1
      apply List.ext_getElem <;> simp [h2]
    rw [hv, show check true "Resize lower test" = .ok () from rfl, Res.ok_bind, show check true "Resize upper test" = .ok () from rfl, Res.ok_bind]
    constructor
    · intro h
      by_contra hne
      rw [check, if_neg (by simpa using fun e => hne e.symm)] at h
      cases h
    · intro h
      rw [check, if_pos (by simpa using h.symm), Res.ok_bind, ofBounds_ok h3, Res.ok_bind, Range.copy_setup, check, if_pos (Range.eqv_iff.2 rfl)]
      rfl
  · intro i hi
    rw [Range.upper_ok (by simpa [← h2] using hi), Res.ok_bind, vget_ok (a := upper[i]'(by omega)) (by simp [← h2, hi])]
    simp
  · intro i hi
    rw [Range.lower_ok (by simpa [← h2] using hi), Res.ok_bind, vget_ok (a := lower[i]'(by omega)) (by simp [hi])]
    simp

/-- **C109** The tests of `shift`, `set` and `includes` pass for all boxes, if the shift is not zero, the new bounds are others of the same length, the inner range is inside
and its second bounds are then set to stick out. -/
theorem C109_range_functionality {a b c s lo hi l h lo' hi' : Int} (h1 : s ≠ 0) (h2 : lo ≠ 0) (h3 : hi - lo = b) (h4 : 0 ≤ l) (h5 : h ≤ a ∧ h ≤ b ∧ h ≤ c)
    (h6 : lo' < 0 ∨ b < hi') : rangeFunctionality a b c s lo hi l h lo' hi' = .ok true := by
  have moved_ok : ∀ {x y : Int}, x ≠ 0 → y - x = b → moved (Range.setup [(0, a), (x, y), (0, c)]) (Range.setup [(0, a), (0, b), (0, c)]) x y = .ok () := by
    intro x y hx hy
    unfold moved
    rw [check, if_pos, Res.ok_bind]
    · rw [show (Range.setup [(0, a), (x, y), (0, c)]).lower 1 = .ok x from rfl, show (Range.setup [(0, a), (x, y), (0, c)]).upper 1 = .ok y from rfl, Res.ok_bind, Res.ok_bind,
        check, if_pos (by simp), Res.ok_bind, check, if_pos (by simp), Res.ok_bind,
        show vget (Range.setup [(0, a), (x, y), (0, c)]).stride 0 = .ok (1 * (c - 0) * (y - x)) from rfl,
        show vget (Range.setup [(0, a), (0, b), (0, c)]).stride 0 = .ok (1 * (c - 0) * (b - 0)) from rfl, Res.ok_bind, Res.ok_bind, check, if_pos (by rw [hy]; simp), Res.ok_bind, check,
        if_pos]
      rw [Range.volume_setup (by simp), Range.volume_setup (by simp)]
      simp [boxVolume, lengths, hy]
    · unfold Range.neqv
      rw [Bool.not_eq_true']
      apply Bool.eq_false_iff.2
      intro e
      have := Range.eqv_iff.1 e
      simp at this
      exact hx this.1
  unfold rangeFunctionality
  rw [show Range.ofLengths 3 [a, b, c] = .ok (Range.setup [(0, a), (0, b), (0, c)]) from rfl, Res.ok_bind]
  dsimp only
  rw [show (Range.setup [(0, a), (0, b), (0, c)]).copy.shift 1 s = .ok (Range.setup [(0, a), (0 + s, b + s), (0, c)]) from rfl, Res.ok_bind, zero_add, moved_ok h1 (by ring), Res.ok_bind,
    show (Range.setup [(0, a), (0, b), (0, c)]).copy.set 1 lo hi = .ok (Range.setup [(0, a), (lo, hi), (0, c)]) from rfl, Res.ok_bind, moved_ok h2 h3, Res.ok_bind,
    show (Range.setup [(0, a), (0, b), (0, c)]).copy.includes ((Range.empty.extrude l h).extrude l h) = false from rfl,
    show ((Range.empty.extrude l h).extrude l h).extrude l h = Range.setup [(l, h), (l, h), (l, h)] from rfl,
    show (Range.setup [(l, h), (l, h), (l, h)]).set 1 lo' hi' = .ok (Range.setup [(l, h), (lo', hi'), (l, h)]) from rfl, check, if_pos (by rfl), Res.ok_bind, check, if_pos, Res.ok_bind, Res.ok_bind, check,
    if_pos]
  · rfl
  · rw [Bool.not_eq_true']
    apply Bool.eq_false_iff.2
    intro e
    have := Range.includes_iff.1 e
    simp [Range.Within] at this
    omega
  · apply Range.includes_iff.2
    simp [Range.Within]
    omega

theorem make_ok {r : Range} (h : 0 ≤ r.copy.volume) : IFace.make (0 : Int) r = .ok ⟨r.copy, List.replicate r.copy.volume.toNat 0⟩ := by
  unfold IFace.make IFace.resize IFace.vresize
  dsimp only
  rw [if_neg (by omega)]
  simp

/-- **C109** The tests of the constructors of containers pass for all lengths that are not negative. -/
theorem C109_indexer_constructors {dims : List Int} (h : ∀ x ∈ dims, 0 ≤ x) : indexerConstructors dims = .ok true := by
  have hv : 0 ≤ (Range.setup (dims.map fun x => ((0 : Int), x))).volume := by
    by_cases h0 : dims = []
    · subst h0; exact le_rfl
    · rw [Range.volume_setup (by simpa using h0)]
      simp only [boxVolume, lengths, List.map_map, Function.comp_def, sub_zero, List.map_id']
      exact List.prod_nonneg h
  unfold indexerConstructors
  rw [check, if_pos (by rfl), Res.ok_bind, ofLengths_ok, Res.ok_bind, make_ok (by rw [Range.copy_setup]; exact hv), Res.ok_bind, Range.copy_setup]
  have n1 : (Range.setup (dims.map fun x => ((0 : Int), x))).numDims = dims.length := by simp [Range.numDims, Range.setup]
  rw [check, if_pos (by rw [n1]; simp), Res.ok_bind]
  unfold IFace.copyCtor
  rw [show IFace.resize (0 : Int) ⟨.empty, []⟩ (Range.setup (dims.map fun x => ((0 : Int), x))) = _ from make_ok (by rw [Range.copy_setup]; exact hv), Res.ok_bind, check,
    if_pos (by rw [Range.copy_setup, n1]; simp)]
  rfl

/-- **C109** The tests of `resize`, `fill` and `swap` pass for all ranges with cells, all new lengths and values. -/
theorem C109_indexer_functionality {a b c d n v : Int} (h1 : a < b) (h2 : c < d) (h3 : 0 ≤ n) : indexerFunctionality a b c d n v = .ok true := by
  have hv : (Range.setup [(a, b), (c, d)]).volume = (b - a) * (d - c) := by
    rw [Range.volume_setup (by simp)]; simp [boxVolume, lengths]
  have hp : 0 < (b - a) * (d - c) := mul_pos (by omega) (by omega)
  have hn : (Range.setup [(0, n)]).volume = n := by
    rw [Range.volume_setup (by simp)]; simp [boxVolume, lengths]
  obtain ⟨k, hk⟩ := Int.eq_ofNat_of_zero_le (by omega : 0 ≤ (b - a) * (d - c))
  have hk0 : 0 < k := by omega
  unfold indexerFunctionality
  dsimp only
  rw [show (Range.empty.extrude a b).extrude c d = Range.setup [(a, b), (c, d)] from rfl, show Range.empty.extrude 0 n = Range.setup [(0, n)] from rfl,
    make_ok (by rw [Range.copy_setup, hv]; omega), Res.ok_bind, Range.copy_setup, hv, hk]
  unfold IFace.resize IFace.vresize
  dsimp only
  rw [Range.copy_setup, hn, if_neg (by omega), Res.ok_bind]
  dsimp only [Res.pure_eq]
  rw [Res.ok_bind]
  dsimp only
  rw [hn, check, if_pos (by simp), Res.ok_bind, Res.ok_bind]
  unfold IFace.fill IFace.swap
  dsimp only
  rw [hv, hk]
  have e0 : vget ((List.replicate ((k : Int).toNat) (0 : Int)).map fun _ => v) 0 = .ok v := by
    have := vget_ok (v := (List.replicate ((k : Int).toNat) (0 : Int)).map fun _ => v) (i := 0) (a := v) (by simp [hk0])
    simpa using this
  have e1 : vget ((List.replicate ((k : Int).toNat) (0 : Int)).map fun _ => v) ((k : Int) - 1) = .ok v := by
    have := vget_ok (v := (List.replicate ((k : Int).toNat) (0 : Int)).map fun _ => v) (i := k - 1) (a := v) (by simp [hk0])
    rw [← this]; congr 1; omega
  rw [e0, e1, Res.ok_bind, Res.ok_bind, check, if_pos (by simp), Res.ok_bind, Res.ok_bind, if_neg (by simp [hv, hk]), Res.ok_bind]
  dsimp only
  rw [e0, hv, hk, e1, Res.ok_bind, Res.ok_bind, check, if_pos (by simp)]
  rfl

theorem forEach_keep {σ : Type _} {sub sup : Range} (hn : sup.dims ≠ []) (hw : Range.Within sup.dims sub.dims) (hp : Pos sub.dims) {body : Indexer → σ → Res σ} {s : σ}
    (h : ∀ c, InBox sub.dims c → body (Indexer.onCell sub.dims sup.dims c) s = .ok s) : (Indexer.make sub sup).forEach body s = .ok s := by
  rw [Indexer.forEach_make hn hw hp]
  have : ∀ L : List Cell, (∀ c ∈ L, InBox sub.dims c) → L.foldlM (fun s c => body (Indexer.onCell sub.dims sup.dims c) s) s = .ok s := by
    intro L
    induction L with
    | nil => intro _; rfl
    | cons c L ih =>
      intro hL
      rw [List.foldlM_cons, h c (hL c List.mem_cons_self), Res.ok_bind]
      exact ih fun x hx => hL x (List.mem_cons_of_mem _ hx)
  exact this _ fun c hc => mem_cells.1 hc

theorem count_ok {sub sup : Range} (hs : sub.WF) (hn : sup.dims ≠ []) (hw : Range.Within sup.dims sub.dims) (hp : Pos sub.dims) : count (Indexer.make sub sup) = .ok sub.volume := by
  unfold count
  rw [Indexer.forEach_make hn hw hp]
  have : ∀ (L : List Cell) (n : Int), L.foldlM (m := Res) (fun n _ => .ok (n + 1)) n = .ok (n + L.length) := by
    intro L
    induction L with
    | nil => intro n; simp
    | cons c L ih => intro n; rw [List.foldlM_cons, Res.ok_bind, ih]; simp; ring
  rw [this, cells_length hp, hs.volume_eq (by intro e; rw [e] at hw; exact hn (List.forall₂_nil_right_iff.1 hw))]
  simp

theorem coloured_ok {ii : IFace Int} (hwf : ii.WF) {d0 d1 : Int × Int} (hd : ii.rng.dims = [d0, d1]) (hp : Pos ii.rng.dims) {fill : Range} {e0 e1 : Int × Int} (hf : fill.dims = [e0, e1])
    {v : Int} (h : ∀ c, InBox ii.rng.dims c → ii.val c = some (if InBox fill.dims c then v else 0)) : checkColoured ii fill v = .ok () := by
  unfold checkColoured coloured IFace.indexer
  have hne : ii.rng.dims ≠ [] := by rw [hd]; simp
  rw [forEach_keep hne (Range.Within.refl _) hp]
  · rfl
  · intro c hc
    have hg := IFace.get_onCell hwf hne hc ii.rng.dims (h c hc)
    obtain ⟨x, y, rfl⟩ : ∃ x y, c = [x, y] := by
      rw [hd] at hc
      have := List.Forall₂.length_eq hc
      match c, this with
      | [x, y], _ => exact ⟨x, y, rfl⟩
    rw [hg]
    have hI : InBox fill.dims [x, y] ↔ (e0.1 ≤ x ∧ x < e0.2) ∧ (e1.1 ≤ y ∧ y < e1.2) := by
      rw [hf]; simp [InBox]
    rw [show vget (Indexer.onCell ii.rng.dims ii.rng.dims [x, y]).index 0 = .ok x from rfl, show vget (Indexer.onCell ii.rng.dims ii.rng.dims [x, y]).index 1 = .ok y from rfl]
    rw [show fill.lower 0 = .ok e0.1 by unfold Range.lower; rw [hf]; rfl, show fill.upper 0 = .ok e0.2 by unfold Range.upper; rw [hf]; rfl,
      show fill.lower 1 = .ok e1.1 by unfold Range.lower; rw [hf]; rfl, show fill.upper 1 = .ok e1.2 by unfold Range.upper; rw [hf]; rfl]
    simp only [Res.ok_bind]
    by_cases hin : (e0.1 ≤ x ∧ x < e0.2) ∧ (e1.1 ≤ y ∧ y < e1.2)
    · rw [if_pos hin, if_pos (hI.2 hin)]; simp
    · rw [if_neg hin, if_neg (fun k => hin (hI.1 k))]; simp

theorem atLower_ok {r : Range} {d0 d1 : Int × Int} (hd : r.dims = [d0, d1]) {idx : Indexer} (h : idx.index = r.dims.map Prod.fst) : atLower idx r = .ok () := by
  unfold atLower
  rw [h, hd, show r.lower 0 = .ok d0.1 by unfold Range.lower; rw [hd]; rfl, show r.lower 1 = .ok d1.1 by unfold Range.lower; rw [hd]; rfl]
  rw [show vget ([d0, d1].map Prod.fst) 0 = .ok d0.1 from rfl, show vget ([d0, d1].map Prod.fst) 1 = .ok d1.1 from rfl]
  simp [check]

/-- **C109** The tests of indexers and of `fill` and `pull` on sub-ranges pass for all containers of two dimensions with cells, all sub-ranges with cells of the same volume, and all values. -/
theorem C109_indexer_indexer {rng sub fill : Range} {d0 d1 s0 s1 f0 f1 : Int × Int} (hr : rng.Made) (hs : sub.Made) (hf : fill.Made) (r2 : rng.dims = [d0, d1]) (s2 : sub.dims = [s0, s1])
    (f2 : fill.dims = [f0, f1]) (rp : Pos rng.dims) (sp : Pos sub.dims) (fp : Pos fill.dims) (sin : rng.includes sub = true) (fin : rng.includes fill = true) (hv : sub.volume = fill.volume)
    (x y z : Int) : indexerIndexer rng sub fill x y z = .ok true := by
  have wr := Range.made_wf hr
  have ws := Range.made_wf hs
  have wf := Range.made_wf hf
  have rne : rng.dims ≠ [] := by rw [r2]; simp
  have sne : sub.dims ≠ [] := by rw [s2]; simp
  have vr : 0 < rng.volume := by rw [wr.volume_eq rne]; exact boxVolume_pos rp
  have vs : 0 < sub.volume := by rw [ws.volume_eq sne]; exact boxVolume_pos sp
  have hsw := Range.includes_iff.1 sin
  have hfw := Range.includes_iff.1 fin
  unfold indexerIndexer
  obtain ⟨ii, hii, mii, rii⟩ : ∃ ii : IFace Int, IFace.make 0 rng = .ok ii ∧ ii.Made 0 ∧ ii.rng = rng := by
    have := make_ok (r := rng) (by rw [wr.copy_eq]; exact vr.le)
    exact ⟨_, this, .make hr this, wr.copy_eq⟩
  rw [hii, Res.ok_bind, check, if_pos (by rfl), Res.ok_bind]
  dsimp only
  have hne : ii.rng.dims ≠ [] := by rw [rii]; exact rne
  have hno : (ii.indexer .empty).ex = false := Indexer.make_not_includes (.inr (by
    intro h; rw [rii, r2] at h; cases h))
  have hself : ii.indexer ii.rng = Indexer.onCell rng.dims rng.dims (rng.dims.map Prod.fst) := by
    rw [rii]; unfold IFace.indexer; rw [rii]; exact Indexer.make_eq_at rne (Range.Within.refl _)
  have hsub : ii.indexer sub = Indexer.make sub rng := by unfold IFace.indexer; rw [rii]
  have hfill : ii.indexer fill = Indexer.onCell fill.dims rng.dims (fill.dims.map Prod.fst) := by
    unfold IFace.indexer; rw [rii]; exact Indexer.make_eq_at rne hfw
  have hcount : count (ii.indexer ii.rng) = .ok rng.volume := by
    rw [rii]; unfold IFace.indexer; rw [rii]; exact count_ok wr rne (Range.Within.refl _) rp
  rw [Indexer.make_eq_at rne hsw, check, if_pos (by rfl), Res.ok_bind, atLower_ok s2 rfl, Res.ok_bind, check, if_pos (by rw [hno]; rfl), Res.ok_bind, check, if_pos (by rw [hself]; rfl), Res.ok_bind,
    check, if_pos (by rw [hself]; simp [Indexer.onCell, r2, offset, offsetFrom]), Res.ok_bind, atLower_ok (r := ii.rng) (by rw [rii, r2]) (by rw [hself, rii]; rfl), Res.ok_bind,
    hcount, Res.ok_bind, check, if_pos (by simp), Res.ok_bind, hsub, count_ok ws rne hsw sp, Res.ok_bind, check, if_pos (by simp), Res.ok_bind,
    check, if_pos (by rw [hno]; rfl), Res.ok_bind, check, if_pos (by rw [hno]; rfl), Res.ok_bind, hfill, atLower_ok f2 rfl, Res.ok_bind]
  -- the container filled with zeros
  obtain ⟨j0, hj0⟩ : ∃ j0, j0 = ii.fill 0 := ⟨_, rfl⟩
  have m0 : j0.Made 0 := by rw [hj0]; exact .fill mii
  have r0 : j0.rng = rng := by rw [hj0]; exact rii
  have v0 : ∀ c, InBox j0.rng.dims c → j0.val c = some 0 := by
    rw [hj0]; exact (C12_fill_all mii (by unfold Range.numDims; rw [rii, r2]; simp) 0).2
  rw [← hj0]
  have incl : ∀ {g : IFace Int}, g.rng = rng → g.rng.includes fill = true := fun h => by rw [h]; exact fin
  have nd : ∀ {g : IFace Int}, g.rng = rng → 0 < g.rng.numDims := fun h => by unfold Range.numDims; rw [h, r2]; simp
  obtain ⟨j1, e1, r1, v1⟩ := C12_fill_sub m0 (nd r0) (incl r0) fp x
  have e1' : (j0.indexer fill).forEach (fun idx ii => ii.put idx x) j0 = .ok j1 := by
    unfold IFace.fillSub at e1
    rwa [if_neg (by rw [incl r0]; simp)] at e1
  have m1 : j1.Made 0 := .fillSub m0 e1
  rw [r0] at r1
  have colour : ∀ {g : IFace Int} {v : Int}, g.Made 0 → g.rng = rng → (∀ c, InBox rng.dims c → g.val c = some (if InBox fill.dims c then v else 0)) → checkColoured g fill v = .ok () := by
    intro g v hg hr' h
    exact coloured_ok (IFace.made_wf hg) (by rw [hr', r2]) (by rw [hr']; exact rp) f2 (by rw [hr']; exact h)
  have c1 : ∀ c, InBox rng.dims c → j1.val c = some (if InBox fill.dims c then x else 0) := by
    intro c hc
    rw [v1 c (by rw [r0]; exact hc), v0 c (by rw [r0]; exact hc)]
    split <;> rfl
  rw [e1', Res.ok_bind, colour m1 r1 c1, Res.ok_bind]
  -- the other container
  obtain ⟨k0, hk0, mk0, rk0⟩ : ∃ ii : IFace Int, IFace.make 0 sub = .ok ii ∧ ii.Made 0 ∧ ii.rng = sub := by
    have := make_ok (r := sub) (by rw [ws.copy_eq]; exact vs.le)
    exact ⟨_, this, .make hs this, ws.copy_eq⟩
  have A : CopyArgs 0 (some j1) k0 fill k0.rng :=
    { src_made := by intro s h; cases h; exact m1
      dst_made := mk0
      src_dims := nd r1
      dst_dims := by unfold Range.numDims; rw [rk0, s2]; simp
      from_in := incl r1
      to_in := Range.includes_iff.2 (Range.Within.refl _)
      from_pos := fp
      to_pos := by rw [rk0]; exact sp
      from_made := hf
      to_made := by rw [rk0]; exact hs
      volumes := by rw [rk0]; exact hv.symm
      disjoint := by intro h; cases h }
  obtain ⟨k1, e2, rk1, len1, copied1, -⟩ := C13_pull A
  have mk1 : k1.Made 0 := .pull mk0 e2
  rw [rk0] at rk1
  rw [hk0, Res.ok_bind, e2, Res.ok_bind]
  have vk1 : ∀ c, InBox sub.dims c → k1.val c = some x := by
    intro c hc
    obtain ⟨n, hn, hc'⟩ := List.getElem_of_mem (mem_cells.2 hc)
    rw [rk0] at len1 copied1
    have hn' : n < (cells fill.dims).length := by rw [len1]; exact hn
    rw [copied1 n (cells fill.dims)[n] c (List.getElem?_eq_getElem hn') (by rw [List.getElem?_eq_getElem hn, hc'])]
    have hin : InBox fill.dims (cells fill.dims)[n] := mem_cells.1 (List.getElem_mem hn')
    show j1.val _ = _
    rw [c1 _ (hfw.mem hin), if_pos hin]
  rw [show (k1.indexer k1.rng).forEach (fun idx t => if t = true then do let __do_lift ← k1.get idx; pure (__do_lift == x) else pure false) true = .ok true from ?_, Res.ok_bind]
  swap
  · unfold IFace.indexer
    apply forEach_keep (by rw [rk1]; exact sne) (Range.Within.refl _) (by rw [rk1]; exact sp)
    intro c hc
    rw [if_pos rfl, IFace.get_onCell (IFace.made_wf mk1) (by rw [rk1]; exact sne) hc k1.rng.dims (vk1 c (by rw [← rk1]; exact hc))]
    simp
  rw [show check true "Sub-range pull test" = .ok () from rfl, Res.ok_bind]
  -- and back
  obtain ⟨k2, hk2⟩ : ∃ k2, k2 = k1.fill y := ⟨_, rfl⟩
  have mk2 : k2.Made 0 := by rw [hk2]; exact .fill mk1
  have rk2 : k2.rng = sub := by rw [hk2]; exact rk1
  have vk2 : ∀ c, InBox k2.rng.dims c → k2.val c = some y := by
    rw [hk2]; exact (C12_fill_all mk1 (by unfold Range.numDims; rw [rk1, s2]; simp) y).2
  rw [← hk2]
  have B : CopyArgs 0 (some k2) j1 k2.rng fill :=
    { src_made := by intro s h; cases h; exact mk2
      dst_made := m1
      src_dims := by show 0 < k2.rng.numDims; unfold Range.numDims; rw [rk2, s2]; simp
      dst_dims := nd r1
      from_in := Range.includes_iff.2 (Range.Within.refl _)
      to_in := incl r1
      from_pos := by rw [rk2]; exact sp
      to_pos := fp
      from_made := by rw [rk2]; exact hs
      to_made := hf
      volumes := by rw [rk2]; exact hv
      disjoint := by intro h; cases h }
  obtain ⟨j2, e3, r3, len2, copied2, other2⟩ := C13_pull B
  have m2 : j2.Made 0 := .pull m1 e3
  rw [r1] at r3 other2
  have c2 : ∀ c, InBox rng.dims c → j2.val c = some (if InBox fill.dims c then y else 0) := by
    intro c hc
    by_cases hin : InBox fill.dims c
    · obtain ⟨n, hn, hc'⟩ := List.getElem_of_mem (mem_cells.2 hin)
      have hn' : n < (cells k2.rng.dims).length := by rw [len2]; exact hn
      rw [copied2 n (cells k2.rng.dims)[n] c (List.getElem?_eq_getElem hn') (by rw [List.getElem?_eq_getElem hn, hc']), if_pos hin]
      exact vk2 _ (mem_cells.1 (List.getElem_mem hn'))
    · rw [other2 c hc hin, c1 c hc, if_neg hin, if_neg hin]
  rw [e3, Res.ok_bind, colour m2 r3 (by intro c hc; rw [c2 c hc]), Res.ok_bind]
  obtain ⟨j3, e4, r4, v4⟩ := C12_fill_sub m2 (nd r3) (incl r3) fp z
  rw [e4, Res.ok_bind, colour (.fillSub m2 e4) (by rw [r4, r3]) ?_]
  · rfl
  · intro c hc
    rw [v4 c (by rw [r3]; exact hc), c2 c hc]
    split
    · rfl
    · rfl

theorem length_tail (G : Box) (d e : Int × Int) : (Range.setup (G ++ [d, e])).length (G.length : Int) = .ok (d.2 - d.1) ∧
    (Range.setup (G ++ [d, e])).length ((G.length : Int) + 1) = .ok (e.2 - e.1) := by
  constructor
  · rw [Range.length_ok (by simp)]; simp
  · have := Range.length_ok (r := Range.setup (G ++ [d, e])) (d := G.length + 1) (by simp)
    rw [show (((G.length + 1 : Nat) : Int)) = (G.length : Int) + 1 from by simp] at this
    rw [this]; simp

/-- **C109** The tests of a new variable pass for all names, components and ghost layers, and all meshes with cells (at least one dimension). -/
theorem C109_variable {name : String} {comps : List String} {dims : List Int} {g : Int} (h0 : dims ≠ []) (h1 : ∀ x ∈ dims, 0 < x) (h2 : 0 ≤ g) :
    variableTest name comps dims g = .ok true := by
  unfold variableTest
  dsimp only
  obtain ⟨M, hM⟩ : ∃ M : Box, M = dims.map fun x => (0, x) := ⟨_, rfl⟩
  have hl : M.length = dims.length := by rw [hM]; simp
  have hne : M ≠ [] := by rw [hM]; simpa using h0
  have hp : Pos M := by
    rw [hM]; intro d hd
    obtain ⟨x, hx, rfl⟩ := List.mem_map.1 hd
    exact h1 x hx
  obtain ⟨c, -, e1, e2, -⟩ := Var.make_spec (0 : Int) name comps Basis.volumeAverage (mesh := Range.setup M) h2 hne hp (by decide)
  obtain ⟨v, e1, w1, w2, w3⟩ : ∃ v : Var Int, Var.make 0 name comps Basis.volumeAverage (Range.setup M) g = .ok v ∧ v.name = name ∧ v.comps = comps ∧
      v.chunks = ⟨Range.setup (chunkBox M.length), [c]⟩ := ⟨_, e1, rfl, rfl, rfl⟩
  rw [Range.setup_dims] at e2
  have hx := expandLoop_spec g M.length (Range.setup M).copy (Range.copy_wf _) le_rfl
  rw [Range.copy_dims, Range.setup_dims, List.take_length, List.drop_length, List.append_nil] at hx
  rw [check, if_pos (by rfl), Res.ok_bind, ofLengths_ok, ← hM, Res.ok_bind, ← hl, hx, Res.ok_bind, e1, Res.ok_bind, checkVariable, check, if_pos (by rw [w1]; simp), Res.ok_bind, check,
    if_pos (by rw [w2]; simp), Res.ok_bind, w3]
  have cne : chunkBox M.length ≠ [] := by
    intro e
    have := congrArg List.length e
    simp only [chunkBox, List.length_replicate, List.length_nil] at this
    exact hne (List.length_eq_zero_iff.1 this)
  unfold IFace.indexer
  rw [Indexer.forEach_make (by exact cne) (Range.Within.refl _) (pos_chunkBox _)]
  dsimp only [Range.setup_dims]
  rw [cells_chunkBox, List.foldlM_cons]
  have hg : (⟨Range.setup (chunkBox M.length), [c]⟩ : IFace (Chunk Int)).get (Indexer.onCell (chunkBox M.length) (chunkBox M.length) (List.replicate M.length 0)) = .ok c := by
    unfold IFace.get Indexer.onCell
    dsimp only
    rw [offset_chunkBox]; rfl
  rw [hg, Res.ok_bind, e2.arr_range]
  have hD : grow g M ++ dataBox Basis.volumeAverage.points comps.length ≠ [] := by simp [dataBox]
  have gl : (grow g M).length = M.length := by simp [grow]
  have hG : grow g M ≠ [] := by intro e; rw [e] at gl; exact hne (List.length_eq_zero_iff.1 gl.symm)
  have l0 : (Range.setup (grow g M ++ dataBox Basis.volumeAverage.points comps.length)).length (M.length : Int) = .ok Basis.volumeAverage.points := by
    rw [← gl]; exact (length_tail _ _ _).1.trans (by simp)
  have l1 : (Range.setup (grow g M ++ dataBox Basis.volumeAverage.points comps.length)).length ((M.length : Int) + 1) = .ok comps.length := by
    rw [← gl]; exact (length_tail _ _ _).2.trans (by simp)
  rw [l0, l1, Res.ok_bind, Res.ok_bind, check, if_pos (by
    rw [Range.volume_setup hD, Range.volume_setup hG, boxVolume_append, boxVolume_dataBox]
    simp; ring), Res.ok_bind, check, if_pos (by simp), Res.ok_bind, check, if_pos (by simp)]
  rfl

/-- **C109** The test programs succeed. -/
theorem C109_programs : testRange = .ok true ∧ testIndexer = .ok true ∧ testVariable = .ok true := by
  have a1 := (C109_range_constructors (dims := [7, 4, 3, 1, 8, 9, 2]) (lower := [1, -20, 8]) (upper := [7, -10, 9]) (volume := 7 * 4 * 3 * 1 * 8 * 9 * 2) (by simp) (by simp) rfl).2 (by simp)
  have a2 := C109_range_extrusion 10 10 10 (-51) (-41)
  have a3 := (C109_range_resize (base := [10, 10, 10]) (lower := [2, 7]) (upper := [5, 9]) (volume := 6) (lower' := [-2, 90]) (upper' := [48, 982]) (by simp) rfl rfl).2 (by simp)
  have a4 := C109_range_functionality (a := 10) (b := 10) (c := 10) (s := 5) (lo := 5) (hi := 15) (l := 2) (h := 4) (lo' := -1) (hi' := 11) (by decide) (by decide) (by decide) (by decide)
    (by decide) (by decide)
  have b1 := C109_indexer_constructors (dims := [7, 4, 3, 1, 8, 9, 2]) (by decide)
  have b2 := C109_indexer_functionality (a := -2) (b := 4) (c := -5) (d := 90) (n := 100) (v := 17) (by decide) (by decide) (by decide)
  have b3 := C109_indexer_indexer (rng := (Range.empty.extrude 0 15).extrude 0 25) (sub := (Range.empty.extrude 9 13).extrude 3 7) (fill := (Range.empty.extrude 1 5).extrude 9 13)
    (.extrude (.extrude .default)) (.extrude (.extrude .default)) (.extrude (.extrude .default)) rfl rfl rfl (by decide) (by decide) (by decide) (by decide) (by decide) (by decide) 21 7 15
  have c1 := C109_variable (name := "CoMpLeX VaRiAbLe NaMe") (comps := ["A", "B", "C"]) (dims := [7, 4, 3, 1]) (g := 3) (by simp) (by decide) (by decide)
  refine ⟨(C109_group _).2 ?_, (C109_group _).2 ?_, (C109_group _).2 ?_⟩
  · rw [a1, a2, a3, a4]; simp
  · rw [b1, b2, b3]; simp
  · rw [c1]; simp

/-- **C109** Two of the tests ask for an indexer over an empty range, not over the one their names speak of (test_indexer.cpp:140, 147-148 extrude the wrong range). What they were meant to
test holds: no indexer exists over a range with another number of dimensions or one that sticks out. -/
theorem C109_meant {f : IFace Int} {r : Range} : (r.numDims ≠ f.rng.numDims → (f.indexer r).ex = false) ∧
    ((∃ d : Nat, ∃ a b, r.dims[d]? = some a ∧ f.rng.dims[d]? = some b ∧ (a.1 < b.1 ∨ b.2 < a.2)) → (f.indexer r).ex = false) := by
  constructor
  · intro h
    exact Indexer.make_not_includes (.inr fun w => h (by unfold Range.numDims; rw [w.length_eq]))
  · rintro ⟨d, a, b, ha, hb, h⟩
    refine Indexer.make_not_includes (.inr fun w => ?_)
    have := List.forall₂_iff_get.1 w
    obtain ⟨x, rfl⟩ := List.getElem?_eq_some_iff.1 ha
    obtain ⟨y, rfl⟩ := List.getElem?_eq_some_iff.1 hb
    have := this.2 d y x
    simp at this
    omega

end QK.Props
