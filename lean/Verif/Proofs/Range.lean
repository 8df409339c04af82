import Verif.Model.Range
import Verif.Proofs.Box
/- Lemmas about the range model. -/
namespace QK
open Spec

/-- Class invariant of `qk::range`: the cached strides are those of the current bounds. -/
def Range.WF (r : Range) : Prop := r.stride = Range.strideLoop r.dims

namespace Range

theorem strideLoop_cons (d : Int × Int) (ds : Box) :
    strideLoop (d :: ds) = boxVolume ds :: strideLoop ds := by
  induction ds generalizing d with
  | nil => simp [strideLoop, boxVolume_nil]
  | cons e es ih =>
    rw [strideLoop, ih e]
    simp only
    rw [boxVolume_cons, mul_comm]

@[simp] theorem strideLoop_length (ds : Box) : (strideLoop ds).length = ds.length := by
  induction ds with
  | nil => rfl
  | cons d ds ih => rw [strideLoop_cons]; simp [ih]

theorem strideLoop_getElem? (ds : Box) (i : Nat) (h : i < ds.length) :
    (strideLoop ds)[i]? = some (boxVolume (ds.drop (i+1))) := by
  induction ds generalizing i with
  | nil => simp at h
  | cons d ds ih =>
    rw [strideLoop_cons]
    cases i with
    | zero => simp
    | succ i => simp at h; simpa using ih i h

@[simp] theorem setup_dims (ds : Box) : (setup ds).dims = ds := rfl
@[simp] theorem setup_stride (ds : Box) : (setup ds).stride = strideLoop ds := rfl
theorem setup_wf (ds : Box) : (setup ds).WF := rfl
theorem WF.eq_setup {r : Range} (h : r.WF) : r = setup r.dims := by
  cases r; simp [WF] at h; simp [setup, h]
@[simp] theorem copy_dims (r : Range) : r.copy.dims = r.dims := rfl
theorem copy_wf (r : Range) : r.copy.WF := rfl
theorem WF.copy_eq {r : Range} (h : r.WF) : r.copy = r := h.eq_setup.symm
@[simp] theorem copy_setup (d : Box) : (setup d).copy = setup d := rfl

theorem volume_setup_cons (d : Int × Int) (ds : Box) :
    (setup (d :: ds)).volume = boxVolume (d :: ds) := by
  simp only [volume, setup, strideLoop_cons, boxVolume_cons]; ring

theorem WF.volume_eq {r : Range} (h : r.WF) (hn : r.dims ≠ []) : r.volume = boxVolume r.dims := by
  rw [h.eq_setup]
  cases hd : r.dims with
  | nil => exact absurd hd hn
  | cons d ds => exact volume_setup_cons d ds

theorem volume_setup {ds : Box} (hn : ds ≠ []) : (setup ds).volume = boxVolume ds :=
  (setup_wf ds).volume_eq hn

theorem set_ok {r : Range} {d : Nat} (h : d < r.dims.length) (lo hi : Int) :
    r.set d lo hi = .ok (setup (r.dims.set d (lo, hi))) := by
  unfold set; rw [vset_nat h]; rfl

theorem lower_ok {r : Range} {d : Nat} (h : d < r.dims.length) : r.lower d = .ok (r.dims[d]).1 := by
  unfold lower; rw [vget_nat h]; rfl
theorem upper_ok {r : Range} {d : Nat} (h : d < r.dims.length) : r.upper d = .ok (r.dims[d]).2 := by
  unfold upper; rw [vget_nat h]; rfl
theorem length_ok {r : Range} {d : Nat} (h : d < r.dims.length) :
    r.length d = .ok ((r.dims[d]).2 - (r.dims[d]).1) := by
  unfold length; rw [upper_ok h, lower_ok h]; rfl

theorem expand_ok {r : Range} {d : Nat} (h : d < r.dims.length) (a b : Int) :
    r.expand d a b = .ok (setup (r.dims.set d ((r.dims[d]).1 + a, (r.dims[d]).2 + b))) := by
  unfold expand; rw [lower_ok h, upper_ok h]; simp only [Res.ok_bind]; exact set_ok h _ _
theorem shift_ok {r : Range} {d : Nat} (h : d < r.dims.length) (s : Int) :
    r.shift d s = .ok (setup (r.dims.set d ((r.dims[d]).1 + s, (r.dims[d]).2 + s))) := by
  unfold shift; rw [lower_ok h, upper_ok h]; simp only [Res.ok_bind]; exact set_ok h _ _

theorem made_wf {r : Range} (h : Made r) : r.WF := by
  induction h with
  | default => rfl
  | @ofBounds n lo hi r h =>
    unfold Range.ofBounds at h
    cases hr : readArrays n lo hi <;> rw [hr] at h <;> cases h; rfl
  | @ofLengths n d r h =>
    unfold Range.ofLengths Range.ofBounds at h
    cases hr : readArrays n (List.replicate n 0) d <;> rw [hr] at h <;> cases h; rfl
  | copy _ _ => rfl
  | @set r d lo hi q _ h _ =>
    unfold Range.set at h
    cases hr : vset r.dims d (lo, hi) <;> rw [hr] at h <;> cases h; rfl
  | @expand r d a b q _ h _ =>
    unfold Range.expand at h
    obtain ⟨l, _, h⟩ := Res.bind_eq_ok.1 h
    obtain ⟨u, _, h⟩ := Res.bind_eq_ok.1 h
    unfold Range.set at h
    cases hr : vset r.dims d (l + a, u + b) <;> rw [hr] at h <;> cases h; rfl
  | @shift r d s q _ h _ =>
    unfold Range.shift at h
    obtain ⟨l, _, h⟩ := Res.bind_eq_ok.1 h
    obtain ⟨u, _, h⟩ := Res.bind_eq_ok.1 h
    unfold Range.set at h
    cases hr : vset r.dims d (l + s, u + s) <;> rw [hr] at h <;> cases h; rfl
  | extrude _ _ => rfl

/-- Inclusion of boxes, dimension by dimension. -/
def Within (outer inner : Box) : Prop :=
  List.Forall₂ (fun a b => a.1 ≤ b.1 ∧ b.2 ≤ a.2) outer inner

theorem includesLoop_iff : ∀ {a b : Box}, b.length = a.length →
    (includesLoop a b = true ↔ Within a b) := by
  intro a
  induction a with
  | nil => intro b h; cases b <;> simp [includesLoop, Within] at *
  | cons x xs ih =>
    intro b h
    cases b with
    | nil => simp at h
    | cons y ys =>
      simp only [includesLoop, Within, List.forall₂_cons]
      have := ih (b := ys) (by simpa using h)
      unfold Within at this
      by_cases hc : x.1 ≤ y.1 ∧ y.2 ≤ x.2
      · rw [if_pos hc, this]; tauto
      · rw [if_neg hc]; simp; tauto

theorem includes_iff {r q : Range} : r.includes q = true ↔ Within r.dims q.dims := by
  unfold includes
  by_cases h : q.numDims = r.numDims
  · rw [if_neg (by simpa using h)]
    exact includesLoop_iff h
  · rw [if_pos h]
    constructor
    · simp
    · intro hw; exact absurd hw.length_eq.symm h

theorem Within.mem {a b : Box} (h : Within a b) {c : Cell} (hc : InBox b c) : InBox a c := by
  induction h generalizing c with
  | nil => exact hc
  | cons h1 _ ih =>
    cases hc with
    | cons h3 h4 => exact List.Forall₂.cons ⟨by omega, by omega⟩ (ih h4)

theorem Within.refl (a : Box) : Within a a := by
  induction a with
  | nil => exact .nil
  | cons d ds ih => exact .cons ⟨le_refl _, le_refl _⟩ ih

theorem eqLoop_iff : ∀ {a b : Box}, a.length = b.length → (eqLoop a b = true ↔ a = b) := by
  intro a
  induction a with
  | nil => intro b h; cases b <;> simp [eqLoop] at *
  | cons x xs ih =>
    intro b h
    cases b with
    | nil => simp at h
    | cons y ys =>
      simp only [eqLoop]
      have := ih (b := ys) (by simpa using h)
      obtain ⟨x1, x2⟩ := x
      obtain ⟨y1, y2⟩ := y
      simp only [List.cons.injEq, Prod.mk.injEq, ne_eq]
      by_cases h1 : x1 = y1 <;> by_cases h2 : x2 = y2 <;> simp [h1, h2, this]

theorem eqv_iff {r q : Range} : r.eqv q = true ↔ r.dims = q.dims := by
  unfold eqv
  by_cases h : r.numDims = q.numDims
  · rw [if_neg (by simpa using h)]
    exact eqLoop_iff h
  · rw [if_pos h]
    constructor
    · simp
    · intro hw; exact absurd (congrArg List.length hw) h

end Range
end QK
