import Verif.Model.Int32
import Verif.Spec.Int32
import Verif.Proofs.Indexer
/- The checked arithmetic of `Model/Int32` agrees with the unbounded one on boxes that fit. -/
namespace QK
open Spec

theorem i32_ok {x : Int} (h0 : -2147483648 ≤ x) (h1 : x ≤ 2147483647) : i32 x = .ok x := if_pos ⟨h0, h1⟩

theorem prodMax_pos (b : Box) : 1 ≤ (b.map (fun d => max 1 (d.2 - d.1))).prod := by
  induction b with
  | nil => simp
  | cons d ds ih =>
    rw [List.map_cons, List.prod_cons]
    have : 1 ≤ max 1 (d.2 - d.1) := le_max_left _ _
    nlinarith

theorem Spec.Fits32.tail {d : Int × Int} {ds : Box} (h : Fits32 (d :: ds)) : Fits32 ds := by
  refine ⟨fun e he => h.1 e (List.mem_cons_of_mem _ he), ?_⟩
  have h2 := h.2
  rw [List.map_cons, List.prod_cons] at h2
  have := prodMax_pos ds
  have : 1 ≤ max 1 (d.2 - d.1) := le_max_left _ _
  nlinarith

theorem boxVolume_le {b : Box} (h : ∀ d ∈ b, d.1 ≤ d.2) :
    0 ≤ boxVolume b ∧ boxVolume b ≤ (b.map (fun d => max 1 (d.2 - d.1))).prod := by
  induction b with
  | nil => simp [boxVolume_nil]
  | cons d ds ih =>
    obtain ⟨h1, h2⟩ := ih (fun e he => h e (List.mem_cons_of_mem _ he))
    have hd := h d List.mem_cons_self
    rw [boxVolume_cons, List.map_cons, List.prod_cons]
    have : d.2 - d.1 ≤ max 1 (d.2 - d.1) := le_max_right _ _
    exact ⟨mul_nonneg (by omega) h1, mul_le_mul this h2 h1 (by omega)⟩

theorem Spec.Fits32.volume {b : Box} (h : Fits32 b) : 0 ≤ boxVolume b ∧ boxVolume b ≤ 2147483647 := by
  have := boxVolume_le (fun d hd => (h.1 d hd).2.1)
  exact ⟨this.1, this.2.trans h.2⟩

theorem Spec.Fits32.len {d : Int × Int} {ds : Box} (h : Fits32 (d :: ds)) : d.2 - d.1 ≤ 2147483647 := by
  have h2 := h.2
  rw [List.map_cons, List.prod_cons] at h2
  have := prodMax_pos ds
  have : d.2 - d.1 ≤ max 1 (d.2 - d.1) := le_max_right _ _
  have : 1 ≤ max 1 (d.2 - d.1) := le_max_left _ _
  nlinarith

theorem Spec.Fits32.head {d : Int × Int} {ds : Box} (h : Fits32 (d :: ds)) : d.1 ≤ d.2 := (h.1 d List.mem_cons_self).2.1

theorem len32_ok {d : Int × Int} {ds : Box} (h : Fits32 (d :: ds)) : Range.len32 d = .ok (d.2 - d.1) :=
  i32_ok (by have := h.head; omega) h.len

theorem strideLoop32_ok {b : Box} (h : Fits32 b) : Range.strideLoop32 b = .ok (Range.strideLoop b) := by
  induction b with
  | nil => rfl
  | cons d ds ih =>
    cases ds with
    | nil => rfl
    | cons e es =>
      have hv := h.tail.volume
      rw [boxVolume_cons] at hv
      rw [Range.strideLoop32, ih h.tail, Range.strideLoop_cons d, Range.strideLoop_cons e]
      simp only [Res.ok_bind, len32_ok h.tail]
      rw [mul_comm] at hv
      rw [i32_ok (by omega) hv.2]
      simp only [Res.ok_bind, Res.pure_eq, boxVolume_cons]
      rw [mul_comm]

theorem setup32_ok {b : Box} (h : Fits32 b) : Range.setup32 b = .ok (Range.setup b) := by
  rw [Range.setup32, strideLoop32_ok h]; rfl

theorem volume32_ok {b : Box} (h : Fits32 b) : (Range.setup b).volume32 = .ok (Range.setup b).volume := by
  cases b with
  | nil => rfl
  | cons d ds =>
    have hv := h.volume
    rw [boxVolume_cons, mul_comm] at hv
    simp only [Range.volume32, Range.volume, Range.setup, Range.strideLoop_cons, len32_ok h, Res.ok_bind]
    exact i32_ok (by omega) hv.2

/-! ### Indexers -/

theorem offset_le {b : Box} (hp : Pos b) {c : Cell} (hc : InBox b c) : 0 ≤ offset b c ∧ offset b c + 1 ≤ boxVolume b := by
  have := offset_nonneg hp hc; omega

theorem linearSum32_ok {b : Box} (h : Fits32 b) : ∀ {c : Cell}, InBox b c → ∀ (acc : Int), 0 ≤ acc →
    acc + offset b c ≤ 2147483647 →
    Indexer.linearSum32 acc c b (Range.strideLoop b) = .ok (acc + offset b c) := by
  induction b with
  | nil =>
    intro c hc acc h0 h1
    cases hc
    simp [Indexer.linearSum32, offset, offsetFrom]
  | cons d ds ih =>
    intro c hc acc h0 h1
    cases hc with
    | cons hd ht =>
      rename_i x xs
      have hl := InBox.length_eq ht
      rw [offset_cons hl] at h1 ⊢
      have ho := offset_nonneg (InBox.pos ht) ht
      have hV := boxVolume_pos (InBox.pos ht)
      have hx : 0 ≤ (x - d.1) * boxVolume ds := mul_nonneg (by omega) (by omega)
      have hlen := h.len
      rw [Range.strideLoop_cons, Indexer.linearSum32, i32_ok (by omega) (by omega), Res.ok_bind,
        i32_ok (by omega) (by omega), Res.ok_bind, i32_ok (by omega) (by omega), Res.ok_bind,
        ih h.tail ht _ (by omega) (by omega)]
      congr 1; ring

theorem inBox_lower {b : Box} (h : Pos b) : InBox b (b.map Prod.fst) := by
  induction b with
  | nil => exact .nil
  | cons d ds ih => exact .cons ⟨le_refl _, h.head⟩ (ih h.tail)

theorem Spec.Fits32.within {a b : Box} (ha : Fits32 a) (hw : Range.Within a b) (hp : Pos b) : Fits32 b := by
  induction hw with
  | nil => exact ha
  | cons h1 ht ih =>
    rename_i d e ds es
    have ht' := ih ha.tail hp.tail
    have hd := ha.1 d List.mem_cons_self
    have he := hp.head
    refine ⟨?_, ?_⟩
    · intro x hx
      cases hx with
      | head => omega
      | tail _ hx => exact ht'.1 x hx
    · have key : ∀ {as bs : Box}, List.Forall₂ (fun d e => d.1 ≤ e.1 ∧ e.2 ≤ d.2) as bs →
          (bs.map (fun d => max 1 (d.2 - d.1))).prod ≤ (as.map (fun d => max 1 (d.2 - d.1))).prod := by
        intro as bs hh
        induction hh with
        | nil => simp
        | cons h1 ht ih =>
          simp only [List.map_cons, List.prod_cons]
          exact mul_le_mul (max_le_max (le_refl _) (by omega)) ih (by linarith [prodMax_pos (by assumption : Box)]) (le_trans (by norm_num) (le_max_left _ _))
      exact (key (.cons h1 ht)).trans ha.2


theorem make32_ok {sub sup : Box} (h : Fits32 sup) (hw : Range.Within sup sub) (hp : Pos sub) :
    Indexer.make32 (Range.setup sub) (Range.setup sup) = .ok (Indexer.make (Range.setup sub) (Range.setup sup)) := by
  have hs := h.within hw hp
  have hc := hw.mem (inBox_lower hp)
  have ho := offset_nonneg hc.pos hc
  have hv := h.volume
  have hi : (Range.setup sup).includes (Range.setup sub) = true := Range.includes_iff.2 hw
  unfold Indexer.make32 Indexer.make
  simp only [Range.setup_dims, setup32_ok h, setup32_ok hs, Res.ok_bind, hi, if_true, Range.copy_setup, Range.setup_stride,
    linearSum32_ok h hc 0 (le_refl _) (by omega), linearSum_eq sup 0 (sub.map Prod.fst) (by simp [hw.length_eq])]
  split <;> rfl

/-- A sub-range that is not included: the constructor computes the strides only. -/
theorem make32_ok_outside {sub sup : Box} (h : Fits32 sup) (hs : Fits32 sub) (hw : ¬ Range.Within sup sub) :
    Indexer.make32 (Range.setup sub) (Range.setup sup) = .ok (Indexer.make (Range.setup sub) (Range.setup sup)) := by
  have hi : (Range.setup sup).includes (Range.setup sub) = false := by
    rw [Bool.eq_false_iff]; intro h; exact hw (Range.includes_iff.1 h)
  unfold Indexer.make32 Indexer.make
  simp only [Range.setup_dims, setup32_ok h, setup32_ok hs, Res.ok_bind, hi, Range.copy_setup]
  split <;> rfl

theorem dot_set : ∀ {c s : List Int} {d : Nat} (_ : c.length = s.length) (hc : d < c.length) (hs : d < s.length) (v : Int),
    dot (c.set d v) s = dot c s + (v - c[d]) * s[d] := by
  intro c
  induction c with
  | nil => intro s d _ hc; simp at hc
  | cons x xs ih =>
    intro s d hl hc hs v
    cases s with
    | nil => simp at hs
    | cons y ys =>
      cases d with
      | zero => simp [dot]; ring
      | succ d =>
        simp only [List.set_cons_succ, dot, List.getElem_cons_succ]
        rw [ih (by simpa using hl) (by simpa using hc) (by simpa using hs) v]
        ring

theorem offset_set {b : Box} {c : Cell} (hl : c.length = b.length) {d : Nat} (hd : d < c.length) (v : Int) :
    offset b (c.set d v) = offset b c + (v - c[d]) * (Range.strideLoop b)[d]'(by simp; omega) := by
  rw [offset_eq_dot _ _ (by simpa using hl), offset_eq_dot _ _ hl, dot_set (by simpa using hl) hd (by simp; omega) v]
  ring

theorem inBox_get {b : Box} {c : Cell} (h : InBox b c) {d : Nat} (hd : d < b.length) (hd' : d < c.length) :
    (b[d]).1 ≤ c[d] ∧ c[d] < (b[d]).2 := by
  have := List.forall₂_iff_get.1 h
  exact this.2 d hd hd'

theorem inBox_set {b : Box} {c : Cell} (h : InBox b c) {d : Nat} (hd : d < b.length) {v : Int} (h0 : (b[d]).1 ≤ v)
    (h1 : v < (b[d]).2) : InBox b (c.set d v) := by
  rw [InBox, List.forall₂_iff_get] at h ⊢
  refine ⟨by simpa using h.1, ?_⟩
  intro i hi hi'
  by_cases hid : i = d
  · subst hid; simp; exact ⟨h0, h1⟩
  · have := h.2 i hi (by simpa using hi')
    simpa [List.getElem_set, Ne.symm hid] using this

theorem stride_bounds {b : Box} (hp : Pos b) {d : Nat} (hd : d < b.length) :
    1 ≤ (Range.strideLoop b)[d]'(by simpa using hd) ∧
    ((b[d]).2 - (b[d]).1) * (Range.strideLoop b)[d]'(by simpa using hd) ≤ boxVolume b := by
  have e : (Range.strideLoop b)[d]'(by simpa using hd) = boxVolume (b.drop (d+1)) := by
    have := Range.strideLoop_getElem? b d hd
    rw [List.getElem?_eq_getElem (by simpa using hd)] at this
    simpa using this
  rw [e]
  have h1 : Pos (b.drop (d+1)) := fun x hx => hp x (List.drop_subset _ _ hx)
  have h2 : Pos (b.take d) := fun x hx => hp x (List.take_subset _ _ hx)
  have h3 : b = b.take d ++ b[d] :: b.drop (d+1) := by simp
  have h4 := boxVolume_pos h1
  have h5 := boxVolume_pos h2
  refine ⟨by omega, ?_⟩
  conv_rhs => rw [h3, boxVolume_append, boxVolume_cons]
  have h6 := hp b[d] (List.getElem_mem hd)
  have : 0 ≤ ((b[d]).2 - (b[d]).1) * boxVolume (b.drop (d+1)) := mul_nonneg (by omega) (by omega)
  nlinarith

theorem within_get {a b : Box} (h : Range.Within a b) {d : Nat} (hd : d < a.length) (hd' : d < b.length) :
    (a[d]).1 ≤ (b[d]).1 ∧ (b[d]).2 ≤ (a[d]).2 := (List.forall₂_iff_get.1 h).2 d hd hd'

theorem recInc32_ok {sub sup : Box} (h : Fits32 sup) (hw : Range.Within sup sub) (hp : Pos sub) (e : Bool) :
    ∀ (d : Nat), d ≤ sup.length → ∀ {c : Cell}, InBox sub c →
    Indexer.recInc32 d { Indexer.onCell sub sup c with ex := e } = Indexer.recInc d { Indexer.onCell sub sup c with ex := e } := by
  intro d
  induction d with
  | zero => intro _ c _; rfl
  | succ d ih =>
    intro hd c hc
    have hl := hw.length_eq
    have hd1 : d < sub.length := by omega
    have hd2 : d < sup.length := by omega
    have hcl := hc.length_eq
    have hd3 : d < c.length := by omega
    have hd4 : d < (Range.strideLoop sup).length := by simpa using hd2
    have hP : Pos sup := (hw.mem hc).pos
    have hsb := h.within hw hp
    have hb := hsb.1 _ (List.getElem_mem hd1)
    have hx := inBox_get hc hd1 hd3
    have hst := stride_bounds hP hd2
    have hwd := within_get hw hd2 hd1
    have hv := h.volume
    have ho := offset_nonneg hP (hw.mem hc)
    have hidx : vget c (d : Int) = .ok c[d] := vget_nat hd3
    have hup : (Range.setup sub).upper (d : Int) = .ok (sub[d]).2 := Range.upper_ok (r := Range.setup sub) hd1
    have hlo : (Range.setup sub).lower (d : Int) = .ok (sub[d]).1 := Range.lower_ok (r := Range.setup sub) hd1
    have hle : (Range.setup sub).length (d : Int) = .ok ((sub[d]).2 - (sub[d]).1) :=
      Range.length_ok (r := Range.setup sub) hd1
    have hvs : vget (Range.strideLoop sup) (d : Int) = .ok (Range.strideLoop sup)[d] := vget_nat hd4
    have hset : ∀ v, vset c (d : Int) v = .ok (c.set d v) := fun v => vset_nat hd3
    have hlen : 1 ≤ (sub[d]).2 - (sub[d]).1 := by omega
    have hlen2 : (sub[d]).2 - (sub[d]).1 ≤ (sup[d]).2 - (sup[d]).1 := by omega
    generalize hs : (Range.strideLoop sup)[d] = s at *
    have hm1 : ((sub[d]).2 - (sub[d]).1) * s ≤ ((sup[d]).2 - (sup[d]).1) * s := mul_le_mul_of_nonneg_right hlen2 (by omega)
    have hm2 : (sub[d]).2 - (sub[d]).1 ≤ ((sub[d]).2 - (sub[d]).1) * s := by nlinarith
    have hm3 : ((sub[d]).2 - (sub[d]).1 - 1) * s = ((sub[d]).2 - (sub[d]).1) * s - s := by ring
    have hm4 : 0 ≤ ((sub[d]).2 - (sub[d]).1 - 1) * s := mul_nonneg (by omega) (by omega)
    rw [Indexer.recInc32, Indexer.recInc]
    simp only [Indexer.onCell, hidx, hup, Res.ok_bind]
    rw [i32_ok (by omega) (by omega), Res.ok_bind]
    by_cases hxe : c[d] = (sub[d]).2 - 1
    · rw [if_pos hxe, if_pos hxe]
      have hc' : InBox sub (c.set d (sub[d]).1) := inBox_set hc hd1 (le_refl _) (by omega)
      have ho' := offset_nonneg hP (hw.mem hc')
      have heq : offset sup c - ((sub[d]).2 - (sub[d]).1 - 1) * s = offset sup (c.set d (sub[d]).1) := by
        rw [offset_set (by omega) hd3, hs, hxe]; ring
      simp only [hlo, hset, hle, hvs, Res.ok_bind, Range.setup_stride, Range.len32]
      rw [i32_ok (by omega) (by omega), Res.ok_bind, i32_ok (by omega) (by omega), Res.ok_bind, i32_ok (by omega) (by omega),
        Res.ok_bind, i32_ok (by omega) (by omega), Res.ok_bind, heq]
      exact ih (by omega) hc'
    · rw [if_neg hxe, if_neg hxe]
      have hc' : InBox sub (c.set d (c[d] + 1)) := inBox_set hc hd1 (by omega) (by omega)
      have ho' := offset_nonneg hP (hw.mem hc')
      have heq : offset sup c + s = offset sup (c.set d (c[d] + 1)) := by
        rw [offset_set (by omega) hd3, hs]; ring
      simp only [Indexer.increment32, Indexer.increment, hvs, hidx, hset, Res.ok_bind, Range.setup_stride]
      rw [i32_ok (by omega) (by omega), Res.ok_bind, i32_ok (by omega) (by omega), Res.ok_bind]

theorem next32_ok {sub sup : Box} (h : Fits32 sup) (hw : Range.Within sup sub) (hp : Pos sub) {c : Cell} (hc : InBox sub c) :
    (Indexer.onCell sub sup c).next32 = (Indexer.onCell sub sup c).next :=
  recInc32_ok h hw hp true _ (le_refl _) hc

theorem Indexer.forEach32_unfold {σ : Type _} (i : Indexer) (body : Indexer → σ → Res σ) (s : σ) :
    i.forEach32 body s = if i.ex then (body i s >>= fun s' => i.next32 >>= fun i' => i'.forEach32 body s')
      else .ok s := by
  unfold Indexer.forEach32
  rw [iter_unfold]
  by_cases h : i.ex = true
  · simp only [h, if_true]
    cases body i s with
    | ok s' =>
      simp only [Res.ok_bind]
      cases i.next32 <;> simp
    | _ => simp
  · simp [h]

theorem forEach32_suffix {σ : Type _} {sub sup : Box} (h : Fits32 sup) (hw : Range.Within sup sub) (hp : Pos sub)
    (body : Indexer → σ → Res σ) : ∀ (L pre : List Cell) (c : Cell) (s : σ), cells sub = pre ++ c :: L →
    (Indexer.onCell sub sup c).forEach32 body s = (Indexer.onCell sub sup c).forEach body s := by
  intro L
  have hl := hw.length_eq.symm
  induction L with
  | nil =>
    intro pre c s hc
    have hin : InBox sub c := mem_cells.1 (by rw [hc]; simp)
    rw [Indexer.forEach32_unfold, Indexer.forEach_unfold, if_pos (by rfl), if_pos (by rfl)]
    congr 1
    funext s'
    rw [next32_ok h hw hp hin, Indexer.next_last hl hp hc, Res.ok_bind, Res.ok_bind, Indexer.forEach32_unfold,
      Indexer.forEach_unfold]
    rfl
  | cons c' L ih =>
    intro pre c s hc
    have hin : InBox sub c := mem_cells.1 (by rw [hc]; simp)
    rw [Indexer.forEach32_unfold, Indexer.forEach_unfold, if_pos (by rfl), if_pos (by rfl)]
    congr 1
    funext s'
    rw [next32_ok h hw hp hin, Indexer.next_chain hl hp hc, Res.ok_bind, Res.ok_bind]
    exact ih (pre ++ [c]) c' s' (by simpa using hc)

theorem forEach32_ok {σ : Type _} {sub sup : Box} (h : Fits32 sup) (hn : sup ≠ []) (hw : Range.Within sup sub) (hp : Pos sub)
    (body : Indexer → σ → Res σ) (s : σ) :
    (Indexer.make (Range.setup sub) (Range.setup sup)).forEach32 body s =
    (Indexer.make (Range.setup sub) (Range.setup sup)).forEach body s := by
  obtain ⟨_, ⟨rest, hrest⟩, _⟩ := cells_chain sub hp
  rw [Indexer.make_eq_at (by simpa using hn) hw]
  exact forEach32_suffix h hw hp body rest [] _ s hrest

/-- The amount `final_linear_index` subtracts. -/
theorem finalLoop32_ok {sup sub : Box} (h : Fits32 sup) (hw : Range.Within sup sub) (hp : Pos sub) :
    ∀ (acc : Int), boxVolume sup ≤ acc → acc ≤ 2147483647 →
    Indexer.finalLoop32 acc sup sub (Range.strideLoop sup) = Indexer.finalLoop acc sup sub (Range.strideLoop sup) := by
  induction hw with
  | nil => intro acc _ _; rfl
  | cons h1 ht ih =>
    rename_i d e ds es
    intro acc h0 h2
    have hP : Pos ds := (Range.Within.mem ht (inBox_lower hp.tail)).pos
    have hV := boxVolume_pos hP
    have he := hp.head
    have hlen := h.len
    rw [boxVolume_cons] at h0
    have hm : (d.2 - e.2) * boxVolume ds ≤ (d.2 - d.1) * boxVolume ds - boxVolume ds := by nlinarith
    have hm0 : 0 ≤ (d.2 - e.2) * boxVolume ds := mul_nonneg (by omega) (by omega)
    rw [Range.strideLoop_cons, Indexer.finalLoop32, Indexer.finalLoop, i32_ok (by omega) (by omega), Res.ok_bind,
      i32_ok (by omega) (by omega), Res.ok_bind, i32_ok (by omega) (by omega), Res.ok_bind]
    exact ih h.tail hp.tail _ (by omega) (by omega)

theorem finalLinear32_ok {sub sup : Box} (h : Fits32 sup) (hn : sup ≠ []) (hw : Range.Within sup sub) (hp : Pos sub) :
    (Indexer.make (Range.setup sub) (Range.setup sup)).finalLinear32 =
    (Indexer.make (Range.setup sub) (Range.setup sup)).finalLinear := by
  rw [Indexer.make_eq_at (by simpa using hn) hw]
  have hv := h.volume
  unfold Indexer.finalLinear32 Indexer.finalLinear Indexer.onCell
  simp only [Range.setup_dims, volume32_ok h, Res.ok_bind, Range.volume_setup hn, Range.setup_stride]
  exact finalLoop32_ok h hw hp _ (le_refl _) hv.2

end QK
