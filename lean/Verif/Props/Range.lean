import Verif.Proofs.Range
/- Properties C01-C04: `qk::range`. -/
namespace QK.Props
open QK Spec

/-- **C01** In every range a client can obtain, `stride(i)` is the product of the later lengths,
`volume()` the product of all lengths (0 without dimensions), `length(i) = upper(i) - lower(i)`. -/
theorem C01_stride_volume {r : Range} (h : r.Made) :
    (∀ i : Nat, i < r.numDims → vget r.stride i = .ok ((lengths r.dims).drop (i+1)).prod) ∧
    r.stride.length = r.numDims ∧
    r.volume = (if r.numDims = 0 then 0 else (lengths r.dims).prod) ∧
    (∀ i : Nat, i < r.numDims → ∃ l u, r.lower i = .ok l ∧ r.upper i = .ok u ∧
      r.length i = .ok (u - l)) := by
  have hw := Range.made_wf h
  refine ⟨?_, ?_, ?_, ?_⟩
  · intro i hi
    apply vget_ok
    rw [hw, Range.strideLoop_getElem? _ _ hi]
    simp [boxVolume, lengths, List.map_drop]
  · rw [hw]; simp [Range.numDims]
  · by_cases h0 : r.numDims = 0
    · rw [if_pos h0]
      have : r.dims = [] := List.length_eq_zero_iff.1 h0
      simp [Range.volume, hw, this, Range.strideLoop]
    · rw [if_neg h0]
      exact hw.volume_eq (fun hd => h0 (by simp [Range.numDims, hd]))
  · intro i hi
    exact ⟨_, _, Range.lower_ok hi, Range.upper_ok hi, Range.length_ok hi⟩

/-- The last stride is 1 (storage along the last dimension is contiguous). -/
theorem C01_last_stride {r : Range} (h : r.Made) (hn : 0 < r.numDims) :
    vget r.stride ((r.numDims - 1 : Nat) : Int) = .ok 1 := by
  rw [(C01_stride_volume h).1 (r.numDims - 1) (by omega)]
  rw [List.drop_eq_nil_of_le (by simp [lengths, Range.numDims] at *; omega)]
  rfl

-- A 3-D range built, edited and copied: the hypotheses are met and the numbers are right.
example : ∃ r q, Range.ofLengths 3 [4, 5, 6] = .ok r ∧ r.expand 1 (-2) 2 = .ok q ∧
    q.copy.Made ∧ q.copy.dims = [(0,4),(-2,7),(0,6)] ∧ q.copy.stride = [54, 6, 1] ∧
    q.copy.volume = 216 :=
  ⟨_, _, rfl, rfl, .copy (.expand (d := 1) (a := -2) (b := 2) (.ofLengths (n := 3) (d := [4,5,6]) rfl) rfl),
    rfl, by decide, by decide⟩

/-- Bounds of `q` are those of `r` except in dimension `d`, where they are `(lo, hi)`. -/
def EditedAt (r q : Range) (d : Nat) (lo hi : Int) : Prop :=
  q.numDims = r.numDims ∧ q.lower d = .ok lo ∧ q.upper d = .ok hi ∧
  ∀ i : Nat, i ≠ d → q.lower i = r.lower i ∧ q.upper i = r.upper i

theorem editedAt_set {r : Range} {d : Nat} (h : d < r.numDims) (lo hi : Int) :
    EditedAt r (Range.setup (r.dims.set d (lo, hi))) d lo hi := by
  have hd : d < (r.dims.set d (lo, hi)).length := by rw [List.length_set]; exact h
  refine ⟨by simp [Range.numDims], ?_, ?_, ?_⟩
  · rw [Range.lower_ok (r := Range.setup _) hd]; simp
  · rw [Range.upper_ok (r := Range.setup _) hd]; simp
  · intro i hid
    have : vget (r.dims.set d (lo, hi)) i = vget r.dims i := by
      unfold vget
      simp [List.getElem?_set, Ne.symm hid]
    simp [Range.lower, Range.upper, this]

/-- **C02** `set`. -/
theorem C02_set {r : Range} {d : Nat} (h : d < r.numDims) (lo hi : Int) :
    ∃ q, r.set d lo hi = .ok q ∧ EditedAt r q d lo hi :=
  ⟨_, Range.set_ok h lo hi, editedAt_set h lo hi⟩

/-- **C02** `expand`. -/
theorem C02_expand {r : Range} {d : Nat} (h : d < r.numDims) (a b : Int) :
    ∃ q l u, r.lower d = .ok l ∧ r.upper d = .ok u ∧ r.expand d a b = .ok q ∧
      EditedAt r q d (l + a) (u + b) :=
  ⟨_, _, _, Range.lower_ok h, Range.upper_ok h, Range.expand_ok h a b, editedAt_set h _ _⟩

/-- **C02** `shift` translates one dimension and keeps lengths, strides and volume. -/
theorem C02_shift {r : Range} (hm : r.Made) {d : Nat} (h : d < r.numDims) (s : Int) :
    ∃ q l u, r.lower d = .ok l ∧ r.upper d = .ok u ∧ r.shift d s = .ok q ∧
      EditedAt r q d (l + s) (u + s) ∧ lengths q.dims = lengths r.dims ∧
      q.stride = r.stride ∧ q.volume = r.volume := by
  refine ⟨_, _, _, Range.lower_ok h, Range.upper_ok h, Range.shift_ok h s, editedAt_set h _ _, ?_⟩
  have hl : lengths (r.dims.set d (r.dims[d].1 + s, r.dims[d].2 + s)) = lengths r.dims := by
    unfold lengths
    rw [List.map_set]
    have h' : d < r.dims.length := h
    have : r.dims[d].2 + s - (r.dims[d].1 + s) = (r.dims.map (fun d => d.2 - d.1))[d]'(by simpa using h') := by
      rw [List.getElem_map]; ring
    show (r.dims.map (fun d => d.2 - d.1)).set d (r.dims[d].2 + s - (r.dims[d].1 + s)) = _
    rw [this, List.set_getElem_self]
  have hst : ∀ a b : Box, lengths a = lengths b → Range.strideLoop a = Range.strideLoop b := by
    intro a
    induction a with
    | nil => intro b hb; cases b <;> simp [lengths] at *
    | cons x xs ih =>
      intro b hb
      cases b with
      | nil => simp [lengths] at hb
      | cons y ys =>
        have h2 : lengths xs = lengths ys := by simp [lengths] at hb ⊢; exact hb.2
        rw [Range.strideLoop_cons, Range.strideLoop_cons, ih ys h2, boxVolume, boxVolume, h2]
  have hne : r.dims ≠ [] := by intro h0; simp [Range.numDims, h0] at h
  refine ⟨hl, ?_, ?_⟩
  · rw [Range.made_wf hm]; exact hst _ _ hl
  · rw [Range.volume_setup (by simpa using hne), (Range.made_wf hm).volume_eq hne, boxVolume, boxVolume, hl]

/-- **C02** `extrude` appends one dimension and multiplies the volume. -/
theorem C02_extrude {r : Range} (hm : r.Made) (lo hi : Int) :
    (r.extrude lo hi).numDims = r.numDims + 1 ∧
    (∀ i : Nat, i < r.numDims → (r.extrude lo hi).lower i = r.lower i ∧
      (r.extrude lo hi).upper i = r.upper i) ∧
    (r.extrude lo hi).lower r.numDims = .ok lo ∧ (r.extrude lo hi).upper r.numDims = .ok hi ∧
    (0 < r.numDims → (r.extrude lo hi).volume = r.volume * (hi - lo)) ∧
    (r.numDims = 0 → (r.extrude lo hi).volume = hi - lo) := by
  refine ⟨by simp [Range.extrude, Range.numDims], ?_, ?_, ?_, ?_, ?_⟩
  · intro i hlt
    have : vget (r.dims ++ [(lo, hi)]) (i : Int) = vget r.dims i := by
      unfold vget
      simp only [Int.toNat_natCast]
      rw [List.getElem?_append_left hlt]
    simp [Range.extrude, Range.lower, Range.upper, this]
  · have : vget (r.dims ++ [(lo, hi)]) (r.numDims : Int) = .ok (lo, hi) := by
      apply vget_ok; simp [Range.numDims]
    simp [Range.extrude, Range.lower, this]
  · have : vget (r.dims ++ [(lo, hi)]) (r.numDims : Int) = .ok (lo, hi) := by
      apply vget_ok; simp [Range.numDims]
    simp [Range.extrude, Range.upper, this]
  · intro hn
    have hne : r.dims ≠ [] := List.length_pos_iff.1 hn
    rw [Range.extrude, Range.volume_setup (by simp), (Range.made_wf hm).volume_eq hne,
      boxVolume_append]
    simp [boxVolume_nil]
  · intro hn
    have : r.dims = [] := List.length_eq_zero_iff.1 hn
    rw [Range.extrude, this, Range.volume_setup (by simp)]
    simp [boxVolume_nil]

/-- **C02** a dimension that does not exist is undefined behaviour. -/
theorem C02_out_of_range {r : Range} {d : Int} (h : d < 0 ∨ (r.numDims : Int) ≤ d) (a b : Int) :
    (∃ w, r.set d a b = .ub w) ∧ (∃ w, r.expand d a b = .ub w) ∧ (∃ w, r.shift d a = .ub w) := by
  have h1 : vget r.dims d = .ub "vector index out of range" := by
    unfold vget
    split
    · rfl
    · rw [List.getElem?_eq_none (by unfold Range.numDims at h; omega)]
  have h2 : vset r.dims d (a, b) = .ub "vector index out of range" := by
    unfold vset; rw [if_neg (by unfold Range.numDims at h; omega)]
  refine ⟨⟨_, by rw [Range.set, h2]; rfl⟩, ⟨_, by rw [Range.expand, Range.lower, h1]; rfl⟩,
    ⟨_, by rw [Range.shift, Range.lower, h1]; rfl⟩⟩

example : ∃ r q, Range.ofLengths 2 [4, 5] = .ok r ∧ r.shift 1 10 = .ok q ∧
    q.dims = [(0,4),(10,15)] ∧ q.stride = r.stride ∧ (1:Nat) < r.numDims := ⟨_, _, rfl, rfl, rfl, rfl, by decide⟩

/-- **C03** `includes` is containment of cell sets. -/
theorem C03_includes {r q : Range} (hq : Pos q.dims) :
    r.includes q = true ↔ q.numDims = r.numDims ∧ ∀ c, InBox q.dims c → InBox r.dims c := by
  rw [Range.includes_iff]
  constructor
  · intro h; exact ⟨h.length_eq.symm, fun c hc => h.mem hc⟩
  · rintro ⟨hl, h⟩
    have key : ∀ (a b : Box), b.length = a.length → Pos b → (∀ c, InBox b c → InBox a c) →
        Range.Within a b := by
      intro a
      induction a with
      | nil => intro b hb _ _; obtain rfl : b = [] := by simpa using hb
               exact .nil
      | cons x xs ih =>
        intro b hb hpos hsub
        cases b with
        | nil => simp at hb
        | cons y ys =>
          have hcell : InBox ys (ys.map Prod.fst) := by
            have : ∀ ys : Box, Pos ys → InBox ys (ys.map Prod.fst) := by
              intro ys
              induction ys with
              | nil => intro _; exact .nil
              | cons z zs ihz => intro hz; exact .cons ⟨le_refl _, hz.head⟩ (ihz hz.tail)
            exact this ys hpos.tail
          have hy := hpos.head
          have h1 := hsub (y.1 :: ys.map Prod.fst) (.cons ⟨le_refl _, hy⟩ hcell)
          have h2 := hsub ((y.2 - 1) :: ys.map Prod.fst) (.cons ⟨by omega, by omega⟩ hcell)
          cases h1 with
          | cons h1 _ =>
          cases h2 with
          | cons h2 _ =>
          refine .cons ⟨h1.1, by omega⟩ (ih ys (by simpa using hb) hpos.tail ?_)
          intro c hc
          have := hsub (y.1 :: c) (.cons ⟨le_refl _, hy⟩ hc)
          cases this with
          | cons _ h => exact h
    exact key _ _ hl hq h

/-- **C03** `includes` is reflexive and transitive; mutual inclusion is `operator==`. -/
theorem C03_order (r q p : Range) :
    r.includes r = true ∧
    (r.includes q = true → q.includes p = true → r.includes p = true) ∧
    (r.includes q = true ∧ q.includes r = true ↔ r.eqv q = true) := by
  simp only [Range.includes_iff, Range.eqv_iff]
  have trans : ∀ {a b c : Box}, Range.Within a b → Range.Within b c → Range.Within a c := by
    intro a b c h1
    induction h1 generalizing c with
    | nil => intro h; exact h
    | cons h _ ih =>
      intro h2
      cases h2 with
      | cons h3 h4 => exact .cons ⟨by omega, by omega⟩ (ih h4)
  refine ⟨.refl _, trans, ?_⟩
  constructor
  · rintro ⟨h1, h2⟩
    generalize hgr : r.dims = a at h1 h2
    generalize hgq : q.dims = b at h1 h2
    clear hgr hgq
    induction h1 with
    | nil => rfl
    | cons h _ ih =>
      cases h2 with
      | cons h3 h4 =>
        rw [ih h4]
        congr 1
        exact Prod.ext (by omega) (by omega)
  · intro h; rw [h]; exact ⟨.refl _, .refl _⟩

example : (Range.setup [(-2, 10), (0, 5)]).includes (Range.setup [(0, 8), (4, 5)]) = true ∧
    (Range.setup [(-2, 10), (0, 5)]).includes (Range.setup [(0, 8), (4, 6)]) = false ∧
    (Range.setup [(-2, 10), (0, 5)]).includes (Range.setup [(0, 8)]) = false := by decide

/-- **C04** `operator==` is equality of bounds, an equivalence, and determines strides and volume. -/
theorem C04_eq {r q p : Range} :
    (r.eqv q = true ↔ r.numDims = q.numDims ∧
      ∀ i : Nat, i < r.numDims → r.lower i = q.lower i ∧ r.upper i = q.upper i) ∧
    r.eqv r = true ∧ (r.eqv q = true → q.eqv r = true) ∧
    (r.eqv q = true → q.eqv p = true → r.eqv p = true) ∧
    (r.neqv q = true ↔ ¬ r.eqv q = true) ∧
    (r.Made → q.Made → r.eqv q = true → r.stride = q.stride ∧ r.volume = q.volume) ∧
    (r.Made → r.copy = r) := by
  refine ⟨?_, ?_, ?_, ?_, ?_, ?_, ?_⟩
  · rw [Range.eqv_iff]
    constructor
    · intro h; simp [Range.numDims, Range.lower, Range.upper, h]
    · rintro ⟨h1, h2⟩
      apply List.ext_getElem h1
      intro i hi hi'
      have h3 := h2 i hi
      rw [Range.lower_ok hi, Range.lower_ok hi', Range.upper_ok hi, Range.upper_ok hi'] at h3
      exact Prod.ext (by simpa using h3.1) (by simpa using h3.2)
  · simp [Range.eqv_iff]
  · simp only [Range.eqv_iff]; exact Eq.symm
  · simp only [Range.eqv_iff]; exact Eq.trans
  · simp [Range.neqv]
  · intro h1 h2 h
    rw [Range.eqv_iff] at h
    have : r = q := by rw [(Range.made_wf h1).eq_setup, (Range.made_wf h2).eq_setup, h]
    rw [this]; exact ⟨rfl, rfl⟩
  · intro h; exact (Range.made_wf h).copy_eq

example : (Range.setup [(0, 3), (1, 2)]).eqv (Range.setup [(0, 3), (1, 2)]) = true ∧
    (Range.setup [(0, 3), (1, 2)]).neqv (Range.setup [(0, 3), (1, 3)]) = true := by decide

end QK.Props
