import Verif.Proofs.Int32
/- Property C66: no signed overflow in the arithmetic of ranges and indexers. -/
namespace QK.Props
open QK Spec

/-- **C66**, ranges: computed with 32-bit integers, `setup` and `volume` do not overflow on a shape that fits, and give the
same result as with unbounded integers. -/
theorem C66_range {b : Box} (h : Fits32 b) :
    Range.setup32 b = .ok (Range.setup b) ∧ (Range.setup b).volume32 = .ok (Range.setup b).volume :=
  ⟨setup32_ok h, volume32_ok h⟩

/-- **C66**, `set`, `expand`, `shift`, `extrude`: no overflow if the resulting shape fits. -/
theorem C66_mutators {b : Box} {d : Nat} (hd : d < b.length) (x y : Int) :
    (Fits32 (b.set d (x, y)) → (Range.setup b).set32 d x y = (Range.setup b).set d x y) ∧
    (Fits32 (b.set d ((b[d]).1 + x, (b[d]).2 + y)) → (Range.setup b).expand32 d x y = (Range.setup b).expand d x y) ∧
    (Fits32 (b.set d ((b[d]).1 + x, (b[d]).2 + x)) → (Range.setup b).shift32 d x = (Range.setup b).shift d x) ∧
    (Fits32 (b ++ [(x, y)]) → (Range.setup b).extrude32 x y = .ok ((Range.setup b).extrude x y)) := by
  have hset : ∀ {p : Int × Int}, Fits32 (b.set d p) → (Range.setup b).set32 d p.1 p.2 = (Range.setup b).set d p.1 p.2 := by
    intro p hp
    rw [Range.set_ok (r := Range.setup b) hd, Range.set32]
    rw [vset_nat (by simpa using hd), Res.ok_bind]
    exact setup32_ok hp
  have hbd : ∀ {p : Int × Int}, Fits32 (b.set d p) → -2147483648 ≤ p.1 ∧ p.1 ≤ 2147483647 ∧ -2147483648 ≤ p.2 ∧ p.2 ≤ 2147483647 := by
    intro p hp
    have := hp.1 p (by rw [List.mem_iff_getElem]; exact ⟨d, by simpa using hd, by simp⟩)
    omega
  have hlo : (Range.setup b).lower (d : Int) = .ok (b[d]).1 := Range.lower_ok (r := Range.setup b) hd
  have hup : (Range.setup b).upper (d : Int) = .ok (b[d]).2 := Range.upper_ok (r := Range.setup b) hd
  refine ⟨fun h => hset h, ?_, ?_, fun h => setup32_ok h⟩
  · intro h
    have hb := hbd h
    simp only [Range.expand32, Range.expand, hlo, hup, Res.ok_bind, i32_ok hb.1 hb.2.1, i32_ok hb.2.2.1 hb.2.2.2]
    exact hset h
  · intro h
    have hb := hbd h
    simp only [Range.shift32, Range.shift, hlo, hup, Res.ok_bind, i32_ok hb.1 hb.2.1, i32_ok hb.2.2.1 hb.2.2.2]
    exact hset h

/-- **C66**, indexers: constructing an indexer over a sub-range without empty dimensions, iterating over it with any loop
body, and `final_linear_index` do not overflow. -/
theorem C66_indexer {sup sub : Box} (h : Fits32 sup) (hn : sup ≠ []) (hw : Range.Within sup sub) (hp : Pos sub) :
    Indexer.make32 (Range.setup sub) (Range.setup sup) = .ok (Indexer.make (Range.setup sub) (Range.setup sup)) ∧
    (∀ {σ : Type} (body : Indexer → σ → Res σ) (s : σ),
      (Indexer.make (Range.setup sub) (Range.setup sup)).forEach32 body s =
      (Indexer.make (Range.setup sub) (Range.setup sup)).forEach body s) ∧
    (Indexer.make (Range.setup sub) (Range.setup sup)).finalLinear32 =
    (Indexer.make (Range.setup sub) (Range.setup sup)).finalLinear :=
  ⟨make32_ok h hw hp, fun body s => forEach32_ok h hn hw hp body s, finalLinear32_ok h hn hw hp⟩

/-- **C66**, a loop that counts its cells visits as many as the box has and does not overflow on the way. -/
theorem C66_count {sup sub : Box} (h : Fits32 sup) (hn : sup ≠ []) (hw : Range.Within sup sub) (hp : Pos sub) :
    (Indexer.make (Range.setup sub) (Range.setup sup)).forEach32 (fun _ (k : Nat) => .ok (k + 1)) 0 =
    .ok (boxVolume sub).toNat := by
  rw [forEach32_ok h hn hw hp, Indexer.forEach_make (by simpa using hn) (by simpa using hw) (by simpa using hp)]
  have : ∀ (l : List Cell) (k : Nat), l.foldlM (fun (k : Nat) _ => (Res.ok (k + 1) : Res Nat)) k = .ok (k + l.length) := by
    intro l
    induction l with
    | nil => intro k; rfl
    | cons c l ih => intro k; rw [List.foldlM_cons, Res.ok_bind, ih]; simp; omega
  rw [this, ← cells_length hp]
  simp

/-- **C66**, an indexer over a sub-range that is not included: nothing but the strides is computed. -/
theorem C66_indexer_outside {sup sub : Box} (h : Fits32 sup) (hs : Fits32 sub) (hw : ¬ Range.Within sup sub) :
    Indexer.make32 (Range.setup sub) (Range.setup sup) = .ok (Indexer.make (Range.setup sub) (Range.setup sup)) :=
  make32_ok_outside h hs hw

/-- **C66**: the conditions are needed. A reversed dimension overflows although all bounds are 32-bit integers and no
length is positive; so does a sub-range that is included but empty in two dimensions; so does a volume of `2^31`. -/
theorem C66_conditions_needed :
    (Range.volume32 ⟨[(2147483647, -2147483648)], [1]⟩ = .ub "signed overflow") ∧
    (Fits32 [(0, 2147483647), (0, 1)] ∧ Range.Within [(0, 2147483647), (0, 1)] [(2147483647, 2147483647), (1, 1)] ∧
      Indexer.make32 (Range.setup [(2147483647, 2147483647), (1, 1)]) (Range.setup [(0, 2147483647), (0, 1)]) =
        .ub "signed overflow") ∧
    (∃ r, Range.setup32 [(0, 65536), (0, 32768)] = .ok r ∧ r.volume32 = .ub "signed overflow") := by
  refine ⟨by decide, ⟨by decide, .cons (by decide) (.cons (by decide) .nil), by decide⟩, ⟨_, rfl, by decide⟩⟩

-- the largest three-dimensional mesh with 7 ghost layers and 6 components, and a sub-range of it
example : Fits32 [(-7, 703), (-7, 703), (-7, 703), (0, 6)] ∧
    Range.Within [(-7, 703), (-7, 703), (-7, 703), (0, 6)] [(0, 696), (0, 696), (0, 696), (0, 1)] ∧
    Pos [(0, 696), (0, 696), (0, 696), (0, 1)] :=
  ⟨by decide, .cons (by decide) (.cons (by decide) (.cons (by decide) (.cons (by decide) .nil))), by decide⟩

example : Fits32 ([(0, 5), (0, 0)].set 1 (-3, 2147483)) := by decide

end QK.Props
